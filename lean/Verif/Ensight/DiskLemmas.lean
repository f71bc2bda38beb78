import Verif.Ensight.Model

/-! # Lemmas: what sequences of writes leave -/

namespace Verif.Ensight

theorem exec_append (a b : List Op) (s : Proc) : exec (a ++ b) s = (exec a s).bind (exec b) := by
  induction a generalizing s with
  | nil => rfl
  | cons o a ih =>
    simp only [List.cons_append, exec, Option.bind_assoc]
    congr 1; funext s'; exact ih s'

theorem Crash.append {a b : List Op} {s : Proc} {d : Disk} (h : Crash s (a ++ b) d) :
    Crash s a d ∨ ∃ s', exec a s = some s' ∧ Crash s' b d := by
  induction a generalizing s with
  | nil => exact .inr ⟨s, rfl, h⟩
  | cons o a ih =>
    cases h with
    | now h => exact .inl (.now h)
    | later h1 h2 =>
      rcases ih h2 with h | ⟨s', e, h⟩
      · exact .inl (.later h1 h)
      · exact .inr ⟨s', by simp [exec, h1, e], h⟩

theorem Crash.left {a : List Op} (b : List Op) {s : Proc} {d : Disk} (h : Crash s a d) : Crash s (a ++ b) d := by
  induction h with
  | now h => exact .now h
  | later h1 _ ih => exact .later h1 ih

theorem Crash.right {a b : List Op} {s s' : Proc} {d : Disk} (e : exec a s = some s') (h : Crash s' b d) : Crash s (a ++ b) d := by
  induction a generalizing s with
  | nil => cases e; exact h
  | cons o a ih =>
    cases h1 : step s o with
    | none => simp [exec, h1] at e
    | some t => simp only [exec, h1, Option.bind_some] at e; exact .later h1 (ih e)

/-- There is a place for the file `p`. -/
def Disk.Ok (d : Disk) (p : Text) : Prop := d.dirs (parent p) = true ∧ d.dirs p = false

theorem Disk.put_dirs (d : Disk) (p t : Text) : (d.put p t).dirs = d.dirs := rfl
theorem Disk.put_same (d : Disk) (p t : Text) : (d.put p t).files p = some t := by simp [put]
theorem Disk.put_ne (d : Disk) {p q : Text} (t : Text) (h : q ≠ p) : (d.put p t).files q = d.files q := by simp [put, h]
theorem Disk.put_put (d : Disk) (p t u : Text) : (d.put p t).put p u = d.put p u := by simp [put]

theorem exec_write {d : Disk} {p : Text} (h : d.Ok p) (t : Text) : exec (write p t) ⟨d, none⟩ = some ⟨d.put p t, none⟩ := by
  simp [write, exec, step, h.1, h.2, Disk.put_put]

theorem crash_write {d d' : Disk} {p t : Text} (h : Crash ⟨d, none⟩ (write p t) d') :
    d' = d ∨ ∃ u, u <+: t ∧ d' = d.put p u := by
  cases h with
  | now h => exact .inl h
  | later h1 h =>
    simp only [step] at h1
    split_ifs at h1
    cases h1
    right
    cases h with
    | now h => obtain ⟨u, hu, e⟩ := h; exact ⟨u, hu.trans (List.nil_prefix), by rw [e, Disk.put_put]⟩
    | later h1 h =>
      cases h1
      cases h with
      | now h => obtain ⟨u, hu, e⟩ := h; exact ⟨u, by simpa using hu, by rw [e]; exact Disk.put_put ..⟩
      | later h1 h =>
        cases h1
        cases h with
        | now h => exact ⟨t, List.prefix_rfl, by rw [h]; simpa using Disk.put_put ..⟩

theorem write_crash {d : Disk} {p : Text} (h : d.Ok p) {t u : Text} (hu : u <+: t) : Crash ⟨d, none⟩ (write p t) (d.put p u) := by
  refine .later (s' := ⟨d.put p [], some (p, [])⟩) (by simp [step, h.1, h.2]) ?_
  refine .later (s' := ⟨d.put p [], some (p, t)⟩) (by simp [step]) ?_
  exact .now ⟨u, hu, (Disk.put_put ..).symm⟩

/-! ### Several files -/

/-- The calls for several files. -/
def writes (W : List (Text × Text)) : List Op := W.flatMap fun w => write w.1 w.2
/-- The disk after several files. -/
def Disk.puts (d : Disk) (W : List (Text × Text)) : Disk := W.foldl (fun d w => d.put w.1 w.2) d

theorem Disk.puts_dirs (d : Disk) (W : List (Text × Text)) : (d.puts W).dirs = d.dirs := by
  induction W generalizing d with
  | nil => rfl
  | cons w W ih => exact ih (d.put w.1 w.2)

theorem Disk.puts_ne (d : Disk) {W : List (Text × Text)} {q : Text} (h : q ∉ W.map Prod.fst) : (d.puts W).files q = d.files q := by
  induction W generalizing d with
  | nil => rfl
  | cons w W ih =>
    simp only [List.map_cons, List.mem_cons, not_or] at h
    exact (ih (d.put w.1 w.2) h.2).trans (d.put_ne _ h.1)

theorem Disk.puts_mem (d : Disk) {W : List (Text × Text)} (hn : (W.map Prod.fst).Nodup) {p t : Text} (h : (p, t) ∈ W) :
    (d.puts W).files p = some t := by
  induction W generalizing d with
  | nil => simp at h
  | cons w W ih =>
    rw [List.map_cons, List.nodup_cons] at hn
    rcases List.mem_cons.1 h with rfl | h
    · exact (Disk.puts_ne _ hn.1).trans (d.put_same _ _)
    · exact ih (d.put w.1 w.2) hn.2 h

theorem exec_writes {d : Disk} {W : List (Text × Text)} (h : ∀ w ∈ W, d.Ok w.1) :
    exec (writes W) ⟨d, none⟩ = some ⟨d.puts W, none⟩ := by
  induction W generalizing d with
  | nil => rfl
  | cons w W ih =>
    show exec (write w.1 w.2 ++ writes W) _ = _
    rw [exec_append, exec_write (h w (by simp)), Option.bind_some]
    exact ih fun v hv => h v (by simp [hv])

theorem crash_writes {d d' : Disk} {W : List (Text × Text)} (hok : ∀ w ∈ W, d.Ok w.1) (h : Crash ⟨d, none⟩ (writes W) d') :
    d'.dirs = d.dirs ∧ ∀ q, q ∉ W.map Prod.fst → d'.files q = d.files q := by
  induction W generalizing d with
  | nil =>
    cases h with
    | now h => rw [show d' = d from h]; exact ⟨rfl, fun _ _ => rfl⟩
  | cons w W ih =>
    rcases Crash.append (a := write w.1 w.2) (b := writes W) h with h | ⟨s', e, h⟩
    · rcases crash_write h with rfl | ⟨u, -, rfl⟩
      · exact ⟨rfl, fun _ _ => rfl⟩
      · refine ⟨rfl, fun q hq => ?_⟩
        simp only [List.map_cons, List.mem_cons, not_or] at hq
        exact d.put_ne _ hq.1
    · rw [exec_write (hok w (by simp))] at e
      cases e
      obtain ⟨h1, h2⟩ := ih (d := d.put w.1 w.2) (fun v hv => hok v (by simp [hv])) h
      refine ⟨h1, fun q hq => ?_⟩
      simp only [List.map_cons, List.mem_cons, not_or] at hq
      exact (h2 q hq.2).trans (d.put_ne w.2 hq.1)

/-! ### The two directories -/

/-- The calls that make the directories. -/
def mkdirs : List Op := [.mkdir (MeshFile.chars "ensight"), .mkdir (MeshFile.chars "ensight/data")]

/-- The two paths are directories or free. -/
structure Disk.Free (d : Disk) : Prop where
  cwd : d.dirs [] = true
  a : d.dirs (MeshFile.chars "ensight") = true ∨ d.files (MeshFile.chars "ensight") = none
  b : d.dirs (MeshFile.chars "ensight/data") = true ∨ d.files (MeshFile.chars "ensight/data") = none

/-- The disk with the two directories. -/
def Disk.made (d : Disk) : Disk :=
  { d with dirs := Function.update (Function.update d.dirs (MeshFile.chars "ensight") true) (MeshFile.chars "ensight/data") true }

theorem parent_ensight : parent (MeshFile.chars "ensight") = [] := by decide
theorem parent_data : parent (MeshFile.chars "ensight/data") = MeshFile.chars "ensight" := by decide

theorem mkdir_first {d : Disk} (h : d.Free) : step ⟨d, none⟩ (.mkdir (MeshFile.chars "ensight")) =
    some ⟨{ d with dirs := Function.update d.dirs (MeshFile.chars "ensight") true }, none⟩ := by
  simp only [step, parent_ensight, h.cwd]
  rcases h.a with e | e
  · have : Function.update d.dirs (MeshFile.chars "ensight") true = d.dirs := by
      funext q; by_cases hq : q = MeshFile.chars "ensight"
      · rw [hq, Function.update_self, e]
      · rw [Function.update_of_ne hq]
    simp [e, this]
  · by_cases e' : d.dirs (MeshFile.chars "ensight") = true
    · have : Function.update d.dirs (MeshFile.chars "ensight") true = d.dirs := by
        funext q; by_cases hq : q = MeshFile.chars "ensight"
        · rw [hq, Function.update_self, e']
        · rw [Function.update_of_ne hq]
      simp [e', this]
    · simp [e, e']

theorem mkdir_second {d : Disk} (h1 : d.dirs (MeshFile.chars "ensight") = true)
    (h2 : d.dirs (MeshFile.chars "ensight/data") = true ∨ d.files (MeshFile.chars "ensight/data") = none) :
    step ⟨d, none⟩ (.mkdir (MeshFile.chars "ensight/data")) =
      some ⟨{ d with dirs := Function.update d.dirs (MeshFile.chars "ensight/data") true }, none⟩ := by
  simp only [step, parent_data, h1]
  by_cases e' : d.dirs (MeshFile.chars "ensight/data") = true
  · have : Function.update d.dirs (MeshFile.chars "ensight/data") true = d.dirs := by
      funext q; by_cases hq : q = MeshFile.chars "ensight/data"
      · rw [hq, Function.update_self, e']
      · rw [Function.update_of_ne hq]
    simp [e', this]
  · have := h2.resolve_left e'
    simp [this, e']

theorem exec_mkdirs {d : Disk} (h : d.Free) : exec mkdirs ⟨d, none⟩ = some ⟨d.made, none⟩ := by
  have hne : MeshFile.chars "ensight/data" ≠ MeshFile.chars "ensight" := by decide
  simp only [mkdirs, exec, mkdir_first h, Option.bind_some]
  rw [mkdir_second (by simp) (by simpa [Function.update_of_ne hne] using h.b)]
  rfl

theorem crash_mkdirs {d d' : Disk} (h : Crash ⟨d, none⟩ mkdirs d') : d'.files = d.files := by
  have key : ∀ (s s' : Proc) (p : Text), s.cur = none → step s (.mkdir p) = some s' → s'.cur = none ∧ s'.disk.files = s.disk.files := by
    intro s s' p hc e
    simp only [step] at e
    split_ifs at e <;> (cases e; exact ⟨hc, rfl⟩)
  have now : ∀ s : Proc, s.cur = none → s.Leaves d' → d' = s.disk := by
    intro s hc h; unfold Proc.Leaves at h; rw [hc] at h; exact h
  cases h with
  | now h => rw [now _ rfl h]
  | later e h =>
    obtain ⟨c1, f1⟩ := key _ _ _ rfl e
    cases h with
    | now h => rw [now _ c1 h, f1]
    | later e h =>
      obtain ⟨c2, f2⟩ := key _ _ _ c1 e
      cases h with
      | now h => rw [now _ c2 h, f2, f1]

end Verif.Ensight
