import Verif.Ensight.DiskLemmas

/-! # Lemmas: a sequence of dumps, each with its data files and the rewritten case file -/

namespace Verif.Ensight
open MeshFile (chars)

/-- The files of one dump: the data files in order, and the case file, which is written last. -/
structure Frame where
  data : List (Text × Text)
  caseText : Text

/-- The calls for one dump. -/
def Frame.ops (cp : Text) (F : Frame) : List Op := mkdirs ++ (writes F.data ++ write cp F.caseText)
/-- The calls for several dumps. -/
def session (cp : Text) (fs : List Frame) : List Op := fs.flatMap (Frame.ops cp)

/-- The paths of the data files. -/
def paths (fs : List Frame) : List Text := fs.flatMap fun F => F.data.map Prod.fst

/-- The names are usable. -/
structure Names (cp : Text) (fs : List Frame) : Prop where
  nodup : (paths fs).Nodup
  case_new : cp ∉ paths fs
  par : ∀ p ∈ paths fs, parent p = chars "ensight/data"
  case_par : parent cp = chars "ensight"
  case_ne : cp ≠ chars "ensight/data"

/-- The disk has room for the files: nothing but a directory is in the place of the two directories, and no directory is in
the place of a file. -/
structure Room (cp : Text) (fs : List Frame) (d : Disk) : Prop where
  free : d.Free
  file : ∀ p ∈ cp :: paths fs, d.dirs p = false

theorem Names.ne {cp : Text} {fs : List Frame} (N : Names cp fs) {p : Text} (hp : p ∈ cp :: paths fs) :
    p ≠ chars "ensight" ∧ p ≠ chars "ensight/data" ∧ p ≠ [] := by
  rcases List.mem_cons.1 hp with rfl | hp
  · refine ⟨?_, N.case_ne, ?_⟩ <;> (intro h; have := N.case_par; rw [h] at this; revert this; decide)
  · refine ⟨?_, ?_, ?_⟩ <;> (intro h; have := N.par _ hp; rw [h] at this; revert this; decide)

theorem Room.made {cp : Text} {fs : List Frame} {d : Disk} (N : Names cp fs) (R : Room cp fs d) :
    Room cp fs d.made ∧ ∀ p ∈ cp :: paths fs, d.made.Ok p := by
  have h1 : ∀ p ∈ cp :: paths fs, d.made.dirs p = false := by
    intro p hp
    obtain ⟨a, b, -⟩ := N.ne hp
    simp only [Disk.made, Function.update_of_ne a, Function.update_of_ne b]
    exact R.file p hp
  have e1 : d.made.dirs (chars "ensight") = true := by
    simp only [Disk.made]; rw [Function.update_of_ne (by decide), Function.update_self]
  have e2 : d.made.dirs (chars "ensight/data") = true := by simp [Disk.made]
  refine ⟨⟨⟨?_, .inl e1, .inl e2⟩, h1⟩, fun p hp => ⟨?_, h1 p hp⟩⟩
  · simp only [Disk.made]
    rw [Function.update_of_ne (by decide), Function.update_of_ne (by decide)]; exact R.free.cwd
  · rcases List.mem_cons.1 hp with rfl | hp
    · rw [N.case_par]; exact e1
    · rw [N.par p hp]; exact e2

theorem Room.congr {cp : Text} {fs : List Frame} {d e : Disk} (R : Room cp fs d) (N : Names cp fs) (h : e.dirs = d.dirs)
    (hf : ∀ q, q ∉ cp :: paths fs → e.files q = d.files q) : Room cp fs e := by
  have h1 : chars "ensight" ∉ cp :: paths fs := fun hp => (N.ne hp).1 rfl
  have h2 : chars "ensight/data" ∉ cp :: paths fs := fun hp => (N.ne hp).2.1 rfl
  refine ⟨⟨by rw [h]; exact R.free.cwd, ?_, ?_⟩, fun p hp => by rw [h]; exact R.file p hp⟩
  · rw [h, hf _ h1]; exact R.free.a
  · rw [h, hf _ h2]; exact R.free.b

/-- The case file belongs to the first `k` dumps: it is missing, or a prefix of what the `k`-th dump prints. -/
def CaseAt (fs : List Frame) (k : ℕ) (t : Option Text) : Prop :=
  (k = 0 ∧ t = none) ∨ ∃ F u, 0 < k ∧ fs[k - 1]? = some F ∧ u <+: F.caseText ∧ t = some u

/-- The first `k` dumps are on the disk, with the case file written after the last of them, and nothing else has changed. -/
structure Upto (cp : Text) (fs : List Frame) (d₀ : Disk) (k : ℕ) (d : Disk) : Prop where
  data : ∀ i < k, ∀ F, fs[i]? = some F → ∀ w ∈ F.data, d.files w.1 = some w.2
  case : CaseAt fs k (d.files cp)
  other : ∀ q, q ∉ cp :: paths fs → d.files q = d₀.files q

theorem mem_paths {fs : List Frame} {i : ℕ} {F : Frame} (h : fs[i]? = some F) {w : Text × Text} (hw : w ∈ F.data) : w.1 ∈ paths fs :=
  List.mem_flatMap.2 ⟨F, List.mem_of_getElem? h, List.mem_map_of_mem hw⟩

/-- The data files of two dumps are different files. -/
theorem Names.disjoint {cp : Text} {fs : List Frame} (N : Names cp fs) {i k : ℕ} (hik : i < k) {F G : Frame} (hF : fs[i]? = some F)
    (hG : fs[k]? = some G) {w : Text × Text} (hw : w ∈ F.data) : w.1 ∉ G.data.map Prod.fst := by
  have hk : k < fs.length := (List.getElem?_eq_some_iff.1 hG).1
  have e : fs = fs.take k ++ G :: fs.drop (k + 1) := by
    rw [← (List.getElem?_eq_some_iff.1 hG).2, ← List.drop_eq_getElem_cons hk, List.take_append_drop]
  have n := N.nodup
  rw [e] at n
  simp only [paths, List.flatMap_append, List.flatMap_cons] at n
  have := (List.nodup_append.1 n).2.2
  intro hm
  refine this w.1 ?_ w.1 (List.mem_append_left _ hm) rfl
  refine List.mem_flatMap.2 ⟨F, ?_, List.mem_map_of_mem hw⟩
  refine List.mem_of_getElem? (i := i) ?_
  rw [List.getElem?_take_of_lt hik]; exact hF

theorem Names.frame_nodup {cp : Text} {fs : List Frame} (N : Names cp fs) {k : ℕ} {G : Frame} (hG : fs[k]? = some G) :
    (G.data.map Prod.fst).Nodup := by
  have hk : k < fs.length := (List.getElem?_eq_some_iff.1 hG).1
  have e : fs = fs.take k ++ G :: fs.drop (k + 1) := by
    rw [← (List.getElem?_eq_some_iff.1 hG).2, ← List.drop_eq_getElem_cons hk, List.take_append_drop]
  have n := N.nodup
  rw [e] at n
  simp only [paths, List.flatMap_append, List.flatMap_cons] at n
  exact (List.nodup_append.1 (List.nodup_append.1 n).2.1).1

/-- One dump. -/
theorem frame_run {cp : Text} {fs : List Frame} {d₀ d : Disk} {k : ℕ} {F : Frame} (N : Names cp fs) (R : Room cp fs d)
    (U : Upto cp fs d₀ k d) (hF : fs[k]? = some F) :
    (∃ e, exec (F.ops cp) ⟨d, none⟩ = some ⟨e, none⟩ ∧ Room cp fs e ∧ Upto cp fs d₀ (k + 1) e ∧ e.files cp = some F.caseText) ∧
      ∀ d', Crash ⟨d, none⟩ (F.ops cp) d' → Upto cp fs d₀ k d' ∨ Upto cp fs d₀ (k + 1) d' := by
  obtain ⟨R1, ok⟩ := R.made N
  have hsub : ∀ p ∈ F.data.map Prod.fst, p ∈ paths fs := by
    intro p hp; obtain ⟨w, hw, rfl⟩ := List.mem_map.1 hp; exact mem_paths hF hw
  have okD : ∀ w ∈ F.data, d.made.Ok w.1 := fun w hw => ok _ (List.mem_cons_of_mem _ (mem_paths hF hw))
  have hcp : cp ∉ F.data.map Prod.fst := fun h => N.case_new (hsub _ h)
  have eW := exec_writes okD
  have okC : (d.made.puts F.data).Ok cp := by
    unfold Disk.Ok; rw [Disk.puts_dirs]; exact ok cp (by simp)
  -- unchanged files keep the first `k` dumps
  have keep : ∀ d' : Disk, (∀ q, q ∉ F.data.map Prod.fst → d'.files q = d.files q) → Upto cp fs d₀ k d' := by
    intro d' h
    refine ⟨fun i hi G hG w hw => ?_, ?_, fun q hq => ?_⟩
    · rw [h _ (N.disjoint hi hG hF hw)]; exact U.data i hi G hG w hw
    · rw [h _ hcp]; exact U.case
    · rw [h q fun hm => hq (List.mem_cons_of_mem _ (hsub q hm))]; exact U.other q hq
  -- after the data files
  have full : ∀ u, u <+: F.caseText → Upto cp fs d₀ (k + 1) ((d.made.puts F.data).put cp u) := by
    intro u hu
    refine ⟨fun i hi G hG w hw => ?_, ?_, fun q hq => ?_⟩
    · have hne : w.1 ≠ cp := fun h => N.case_new (h ▸ mem_paths hG hw)
      rw [Disk.put_ne _ _ hne]
      by_cases hik : i < k
      · rw [Disk.puts_ne _ (N.disjoint hik hG hF hw)]; exact U.data i hik G hG w hw
      · obtain rfl : i = k := by omega
        rw [hF] at hG; cases hG
        exact Disk.puts_mem _ (N.frame_nodup hF) hw
    · exact .inr ⟨F, u, Nat.succ_pos _, by simpa using hF, hu, Disk.put_same ..⟩
    · have hqc : q ≠ cp := by rintro rfl; exact hq (by simp)
      rw [Disk.put_ne _ _ hqc, Disk.puts_ne _ fun hm => hq (List.mem_cons_of_mem _ (hsub q hm))]
      exact U.other q hq
  constructor
  · refine ⟨(d.made.puts F.data).put cp F.caseText, ?_, ?_, full _ List.prefix_rfl, Disk.put_same ..⟩
    · unfold Frame.ops
      rw [exec_append, exec_mkdirs R.free, Option.bind_some, exec_append, eW, Option.bind_some, exec_write okC]
    · refine R1.congr N ?_ ?_
      · rw [Disk.put_dirs, Disk.puts_dirs]
      · intro q hq
        have hqc : q ≠ cp := by rintro rfl; exact hq (by simp)
        rw [Disk.put_ne _ _ hqc, Disk.puts_ne _ fun hm => hq (List.mem_cons_of_mem _ (hsub q hm))]
  · intro d' h
    unfold Frame.ops at h
    rcases h.append with h | ⟨s, e, h⟩
    · left; exact keep d' fun q _ => by rw [crash_mkdirs h]
    · rw [exec_mkdirs R.free] at e; cases e
      rcases h.append with h | ⟨s, e, h⟩
      · left; exact keep d' (crash_writes okD h).2
      · rw [eW] at e; cases e
        rcases crash_write h with rfl | ⟨u, hu, rfl⟩
        · left; exact keep _ fun q hq => Disk.puts_ne _ hq
        · right; exact full u hu

/-- All dumps from the `k`-th on. -/
theorem session_run {cp : Text} {fs : List Frame} {d₀ : Disk} (N : Names cp fs) :
    ∀ (n k : ℕ) (d : Disk), k + n = fs.length → Room cp fs d → Upto cp fs d₀ k d →
      (∃ e, exec (session cp (fs.drop k)) ⟨d, none⟩ = some ⟨e, none⟩ ∧ Room cp fs e ∧ Upto cp fs d₀ fs.length e ∧
        (0 < n → ∀ F, fs[fs.length - 1]? = some F → e.files cp = some F.caseText)) ∧
      ∀ d', Crash ⟨d, none⟩ (session cp (fs.drop k)) d' → ∃ j, k ≤ j ∧ j ≤ fs.length ∧ Upto cp fs d₀ j d' := by
  intro n
  induction n with
  | zero =>
    intro k d hk R U
    obtain rfl : k = fs.length := by omega
    rw [List.drop_length]
    refine ⟨⟨d, rfl, R, U, fun h => absurd h (by omega)⟩, fun d' h => ?_⟩
    cases h with
    | now h => rw [show d' = d from h]; exact ⟨_, le_rfl, le_rfl, U⟩
  | succ n ih =>
    intro k d hk R U
    have hlt : k < fs.length := by omega
    have hF : fs[k]? = some fs[k] := List.getElem?_eq_getElem hlt
    obtain ⟨⟨e, h1, R1, U1, c1⟩, h2⟩ := frame_run N R U hF
    obtain ⟨⟨e', h3, R2, U2, c2⟩, h4⟩ := ih (k + 1) e (by omega) R1 U1
    have eq : session cp (fs.drop k) = (fs[k]).ops cp ++ session cp (fs.drop (k + 1)) := by
      rw [List.drop_eq_getElem_cons hlt]; rfl
    rw [eq]
    constructor
    · refine ⟨e', by rw [exec_append, h1, Option.bind_some, h3], R2, U2, fun _ F hl => ?_⟩
      rcases Nat.eq_zero_or_pos n with rfl | hn
      · have : k = fs.length - 1 := by omega
        rw [← this, hF] at hl; cases hl
        have : fs.drop (k + 1) = [] := List.drop_eq_nil_of_le (by omega)
        rw [this] at h3; cases h3; exact c1
      · exact c2 hn F hl
    · intro d' h
      rcases h.append with h | ⟨s, e2, h⟩
      · rcases h2 d' h with h | h
        · exact ⟨k, le_rfl, by omega, h⟩
        · exact ⟨k + 1, by omega, by omega, h⟩
      · rw [h1] at e2; cases e2
        obtain ⟨j, a, b, c⟩ := h4 d' h
        exact ⟨j, by omega, b, c⟩

/-- The state after the first `k` dumps. -/
theorem session_prefix {cp : Text} {fs : List Frame} {d₀ : Disk} (N : Names cp fs) (R : Room cp fs d₀) (U : Upto cp fs d₀ 0 d₀) :
    ∀ k ≤ fs.length, ∃ d, exec (session cp (fs.take k)) ⟨d₀, none⟩ = some ⟨d, none⟩ ∧ Room cp fs d ∧ Upto cp fs d₀ k d := by
  intro k
  induction k with
  | zero => intro _; exact ⟨d₀, rfl, R, U⟩
  | succ k ih =>
    intro hk
    obtain ⟨d, e, R1, U1⟩ := ih (by omega)
    have hlt : k < fs.length := by omega
    obtain ⟨⟨d', e', R2, U2, -⟩, -⟩ := frame_run N R1 U1 (List.getElem?_eq_getElem hlt)
    refine ⟨d', ?_, R2, U2⟩
    have : session cp (fs.take (k + 1)) = session cp (fs.take k) ++ (fs[k]).ops cp := by
      rw [List.take_succ_eq_append_getElem hlt]; unfold session; rw [List.flatMap_append, List.flatMap_cons, List.flatMap_nil, List.append_nil]
    rw [this, exec_append, e, Option.bind_some, e']

end Verif.Ensight
