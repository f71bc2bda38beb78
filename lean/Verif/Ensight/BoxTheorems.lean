import Verif.Ensight.Theorems

/-!
# C105: the files of the box mesh generator
-/

namespace Verif.Ensight
open MeshFile

/-- The path of the case file. -/
def boxCasePath : Text := chars "ensight/mesh.case"
/-- The lines of the case file before the number of steps. -/
def boxHeadLines : List Text :=
  [chars "FORMAT", chars "type: ensight gold", chars "GEOMETRY", chars "model: data/mesh.*****.geo", chars "VARIABLE",
    chars "scalar per element: mat_index data/mesh.*****.var", chars "TIME", chars "time set: 1"]
/-- The sections of the case file before the number of steps. -/
def boxHead : Text := boxHeadLines.flatMap fun l => l ++ ['\n']
/-- What is between the number of steps and the time values. -/
def boxMid : Text := chars "filename start number: 1\nfilename increment: 1\ntime values: \n"
/-- The case file for the times `l`. -/
noncomputable def boxCaseFile (rnd : ℝ → ℕ) (l : List ℝ) : Text :=
  boxHead ++ (chars "number of steps: " ++ fmtD 4 (l.length : ℤ) ++ '\n' :: (boxMid ++ timesText rnd l))

theorem boxCaseText_spec (rnd : ℝ → ℕ) (num : ℕ) {times : Arr ℝ} (h : num + 1 ≤ times.size) :
    boxCaseText rnd num times = some (boxCaseFile rnd ((List.range (num + 1)).map times.val)) := by
  unfold boxCaseText
  rw [Average.printTimes_spec h]
  refine congrArg some ?_
  unfold boxCaseFile
  have e : (((List.range (num + 1)).map times.val).length : ℤ) = (num : ℤ) + 1 := by simp
  have e1 : chars "FORMAT\ntype: ensight gold\nGEOMETRY\nmodel: data/mesh.*****.geo\nVARIABLE\nscalar per element: mat_index data/mesh.*****.var\nTIME\ntime set: 1\nnumber of steps: " =
      boxHead ++ chars "number of steps: " := by decide +kernel
  have e2 : chars "\nfilename start number: 1\nfilename increment: 1\ntime values: \n" = '\n' :: boxMid := by decide +kernel
  rw [e, e1, e2]
  simp only [List.append_assoc, List.cons_append]

theorem lines_boxHead : lines boxHead = boxHeadLines := lines_flat (by decide +kernel)
theorem box_a1 : boxHead.getLast? = some '\n' := by
  unfold boxHead boxHeadLines
  simp only [List.flatMap_cons, List.flatMap_nil, List.append_nil, ← List.append_assoc, List.getLast?_concat]
theorem box_a2 : boxMid.getLast? = some '\n' := by decide +kernel
theorem box_a3 : lines boxMid = [chars "filename start number: 1", chars "filename increment: 1"] ++ [chars "time values: "] := by decide +kernel
theorem box_a4 : (lines boxHead).findSome? (after (chars "number of steps:")) = none := by rw [lines_boxHead]; decide +kernel
theorem box_a5 : (lines boxHead).findSome? (after (chars "filename start number:")) = none := by rw [lines_boxHead]; decide +kernel
theorem box_a6 : number (chars "filename start number:") [chars "filename start number: 1", chars "filename increment: 1"] = some 1 := by
  decide +kernel
theorem box_a7 : ∀ l ∈ lines boxHead, l ≠ chars "time values: " := by rw [lines_boxHead]; decide +kernel
theorem box_a8 : ∀ l ∈ [chars "filename start number: 1", chars "filename increment: 1"], l ≠ chars "time values: " := by decide +kernel
theorem box_a9 : (lines boxMid).filterMap filePattern = [] := by decide +kernel
theorem box_b : (lines boxHead).filterMap filePattern = [chars "data/mesh.*****.geo", chars "data/mesh.*****.var"] := by
  rw [lines_boxHead]; decide +kernel

theorem readCase_box {rnd : ℝ → ℕ} (hr : Nearest rnd) (l : List ℝ) :
    readCase (boxCaseFile rnd l) = some ⟨[chars "data/mesh.*****.geo", chars "data/mesh.*****.var"], l.length, 1, l.map (printed rnd)⟩ := by
  have key := readCase_whole hr box_a1 box_a2 box_a3 box_a4 box_a5 box_a6 box_a7 box_a8 box_a9 l
  rw [box_b] at key
  exact key

/-- The files of one call. -/
noncomputable def boxFrame (rnd : ℝ → ℕ) (geo : Text) (C num : ℕ) (times : List ℝ) : Frame :=
  ⟨[(numbered (chars "ensight/data/mesh.") (num + 1) (chars "geo"), geo),
    (numbered (chars "ensight/data/mesh.") (num + 1) (chars "var"), scalarFile rnd C fun _ => 1)], boxCaseFile rnd times⟩

theorem boxOps_spec (rnd : ℝ → ℕ) {coords : Arr (ℕ → ℝ)} {cells : Arr ℤ} {N C : ℕ} {geo : Text}
    (hg : writeBox rnd coords cells N C = some geo) {num : ℕ} (hnum : num + 1 < 10 ^ 5) {times : Arr ℝ} (ht : num + 1 ≤ times.size) :
    boxOps rnd num times coords cells N C =
      some (session boxCasePath [boxFrame rnd geo C num ((List.range (num + 1)).map times.val)]) := by
  unfold boxOps
  have h1 := fmt05_length hnum
  have h2 : (chars "ensight/data/mesh.").length = 18 := by decide
  have sp : ∀ suf : Text, suf.length ≤ 60 → sprintf 100 (chars "ensight/data/mesh." ++ fmt05 (num + 1) ++ '.' :: suf) =
      some (numbered (chars "ensight/data/mesh.") (num + 1) suf) := by
    intro suf hs
    unfold sprintf numbered
    rw [if_pos, List.append_assoc]
    simp only [List.length_append, List.length_cons, h1, h2]
    omega
  have p0 : sprintf 100 (chars "ensight/data/mesh." ++ fmt05 (num + 1) ++ chars ".geo") = _ := sp (chars "geo") (by decide)
  have p1 : sprintf 100 (chars "ensight/data/mesh." ++ fmt05 (num + 1) ++ chars ".var") = _ := sp (chars "var") (by decide)
  have p2 : sprintf 100 (chars "ensight/mesh.case") = some boxCasePath := by decide
  simp only [p0, p1, p2, hg, boxVarText_spec, boxCaseText_spec rnd num ht, bind, pure, Option.bind_some]
  refine congrArg some ?_
  simp only [List.append_assoc]
  rfl

theorem box_names (rnd : ℝ → ℕ) (geo : Text) (C num : ℕ) (times : List ℝ) : Names boxCasePath [boxFrame rnd geo C num times] := by
  have hp : paths [boxFrame rnd geo C num times] = [numbered (chars "ensight/data/mesh.") (num + 1) (chars "geo"),
      numbered (chars "ensight/data/mesh.") (num + 1) (chars "var")] := rfl
  refine ⟨?_, ?_, ?_, by decide, by decide⟩
  · rw [hp]
    refine List.nodup_cons.2 ⟨fun h => ?_, by simp⟩
    have := (numbered_inj (List.mem_singleton.1 h)).2
    revert this; decide
  · rw [hp]
    intro hm
    have key : ∀ s : Text, boxCasePath ≠ numbered (chars "ensight/data/mesh.") (num + 1) s := by
      intro s e
      have := congrArg (List.take 9) e
      unfold numbered at this
      rw [List.take_append_of_le_length (by decide)] at this
      revert this
      decide
    rcases List.mem_cons.1 hm with h | h
    · exact key _ h
    · exact key _ (List.mem_singleton.1 h)
  · rw [hp]
    intro p hm
    rcases List.mem_cons.1 hm with rfl | h
    · exact numbered_parent (chars "ensight/data") _ (by decide) (p := chars "mesh.") (by decide)
    · rw [List.mem_singleton.1 h]
      exact numbered_parent (chars "ensight/data") _ (by decide) (p := chars "mesh.") (by decide)

theorem box_one : ∀ s : Text, numbered (chars "ensight/data/mesh.") 1 s = chars "ensight/data/mesh.00001." ++ s := by
  intro s
  unfold numbered
  rw [fmt05_digitsN (by decide)]
  have : chars "ensight/data/mesh.00001." = chars "ensight/data/mesh." ++ (digitsN 5 1 ++ ['.']) := by decide +kernel
  rw [this]; simp

/-- **C105**: The box mesh generator writes its mesh into a directory without an earlier `mesh.case`.  Undisturbed it leaves a case file
that a viewer accepts.  Whenever the process dies, a viewer that accepts the case file finds one step at time 0, whose mesh file and
variable file, `ensight/data/mesh.00001.geo` and `.var`, are there and whole. -/
theorem C105_box {rnd : ℝ → ℕ} (hr : Nearest rnd) {coords : Arr (ℕ → ℝ)} {cells : Arr ℤ} {N C : ℕ} {geo : Text}
    (hg : writeBox rnd coords cells N C = some geo) {disk : Disk} (hfree : disk.Free)
    (hfile : ∀ p ∈ [chars "ensight/mesh.case", chars "ensight/data/mesh.00001.geo", chars "ensight/data/mesh.00001.var"], disk.dirs p = false)
    (hnew : disk.files (chars "ensight/mesh.case") = none) :
    ∃ ops, boxOps rnd 0 ⟨1, fun _ => 0⟩ coords cells N C = some ops ∧
      (∃ disk' t c, exec ops ⟨disk, none⟩ = some ⟨disk', none⟩ ∧ disk'.files (chars "ensight/mesh.case") = some t ∧ readCase t = some c) ∧
      ∀ disk', Crash ⟨disk, none⟩ ops disk' → ∀ t c, disk'.files (chars "ensight/mesh.case") = some t → readCase t = some c →
        c.steps = 1 ∧ c.times = [0] ∧ c.patterns.length = 2 ∧
        chars "ensight/" ++ resolve (c.patterns.getD 0 []) c.start.toNat = chars "ensight/data/mesh.00001.geo" ∧
        chars "ensight/" ++ resolve (c.patterns.getD 1 []) c.start.toNat = chars "ensight/data/mesh.00001.var" ∧
        disk'.files (chars "ensight/data/mesh.00001.geo") = some geo ∧
        disk'.files (chars "ensight/data/mesh.00001.var") = some (scalarFile rnd C fun _ => 1) := by
  have g0 : numbered (chars "ensight/data/mesh.") (0 + 1) (chars "geo") = chars "ensight/data/mesh.00001.geo" := by
    rw [Nat.zero_add, box_one]; decide +kernel
  have g1 : numbered (chars "ensight/data/mesh.") (0 + 1) (chars "var") = chars "ensight/data/mesh.00001.var" := by
    rw [Nat.zero_add, box_one]; decide +kernel
  have N' := box_names rnd geo C 0 [0]
  have R : Room boxCasePath [boxFrame rnd geo C 0 [0]] disk := by
    refine ⟨hfree, fun p hp => ?_⟩
    rw [show paths [boxFrame rnd geo C 0 [0]] = [numbered (chars "ensight/data/mesh.") (0 + 1) (chars "geo"),
      numbered (chars "ensight/data/mesh.") (0 + 1) (chars "var")] from rfl, g0, g1] at hp
    exact hfile p hp
  obtain ⟨⟨d1, e1, -, U1, c1⟩, h2⟩ := session_run N' 1 0 disk rfl R (upto_zero hnew)
  have hc := readCase_box hr [(0 : ℝ)]
  refine ⟨_, boxOps_spec rnd hg (by decide) (show 0 + 1 ≤ (⟨1, fun _ => 0⟩ : Arr ℝ).size from le_rfl), ⟨d1, _, _, e1, c1 (by decide) _ rfl, hc⟩, ?_⟩
  intro disk' h t c ht hcr
  obtain ⟨j, -, hj, U⟩ := h2 disk' h
  rcases U.case with ⟨-, h⟩ | ⟨F, u, hk, hF, hu, h⟩
  · rw [show disk'.files (chars "ensight/mesh.case") = none from h] at ht; cases ht
  obtain rfl : j = 1 := by have : j ≤ 1 := hj; omega
  cases hF
  obtain rfl : u = t := Option.some.inj (h.symm.trans ht)
  obtain ⟨w, ew⟩ := timesText_end rnd (times := [(0 : ℝ)]) (by simp)
  have ew : boxCaseFile rnd [0] = (boxHead ++ (chars "number of steps: " ++ fmtD 4 (1 : ℤ) ++ '\n' :: (boxMid ++ w))) ++ ['\n'] := by
    unfold boxCaseFile
    rw [ew]; simp [List.append_assoc]
  have : u = boxCaseFile rnd [0] := by
    by_contra hcut
    have hu' : u <+: boxCaseFile rnd [0] := hu
    rw [ew] at hc hu' hcut
    rw [readCase_cut hc (by simp) hu' hcut] at hcr
    cases hcr
  rw [this, hc] at hcr
  cases hcr
  have hgeo := U.data 0 (by decide) _ rfl (numbered (chars "ensight/data/mesh.") (0 + 1) (chars "geo"), geo) (by simp [boxFrame])
  have hvar := U.data 0 (by decide) _ rfl (numbered (chars "ensight/data/mesh.") (0 + 1) (chars "var"), scalarFile rnd C fun _ => 1) (by simp [boxFrame])
  have q0 : chars "ensight/" ++ resolve (chars "data/mesh.*****.geo") 1 = chars "ensight/data/mesh.00001.geo" := by decide +kernel
  have q1 : chars "ensight/" ++ resolve (chars "data/mesh.*****.var") 1 = chars "ensight/data/mesh.00001.var" := by decide +kernel
  refine ⟨rfl, ?_, rfl, q0, q1, g0 ▸ hgeo, g1 ▸ hvar⟩
  show [printed rnd 0] = [0]
  rw [printed_zero]

/-- Hypotheses met: the generator's mesh of two cells, in an empty directory; the process dies after 20 characters of the mesh file. -/
example {rnd : ℝ → ℕ} : ∃ geo, writeBox rnd ⟨12, fun i d => (i + d : ℕ)⟩ ⟨16, fun i => (i / 8 + i % 8 : ℕ)⟩ 12 2 = some geo ∧
    (⟨fun p => decide (p = []), fun _ => none⟩ : Disk).Free ∧
    ∃ ops disk', boxOps rnd 0 ⟨1, fun _ => 0⟩ ⟨12, fun i d => (i + d : ℕ)⟩ ⟨16, fun i => (i / 8 + i % 8 : ℕ)⟩ 12 2 = some ops ∧
      Crash ⟨⟨fun p => decide (p = []), fun _ => none⟩, none⟩ ops disk' ∧
      disk'.files (chars "ensight/data/mesh.00001.geo") = some (geo.take 20) ∧ disk'.files (chars "ensight/mesh.case") = none := by
  have hg : ∃ geo, writeBox rnd ⟨12, fun i d => (i + d : ℕ)⟩ ⟨16, fun i => (i / 8 + i % 8 : ℕ)⟩ 12 2 = some geo := by
    unfold writeBox
    simp only []
    rw [writeCoords_spec rnd _ (by simp)]
    simp only [bind, Option.bind_some]
    have := writeCells_spec ⟨16, fun i => (i / 8 + i % 8 : ℕ)⟩ id [] (n := 2) (by decide) (by simp)
    simp only [List.append_nil, id] at this
    exact ⟨_, this _⟩
  obtain ⟨geo, hg⟩ := hg
  have hfree : (⟨fun p => decide (p = []), fun _ => none⟩ : Disk).Free := ⟨by simp, .inr rfl, .inr rfl⟩
  refine ⟨geo, hg, hfree, _, _, boxOps_spec rnd hg (by decide) le_rfl,
    Crash.left [] (Crash.right (exec_mkdirs hfree) (Crash.left _ (Crash.left _ (write_crash ?_ (List.take_prefix 20 geo))))), ?_, ?_⟩
  · have R : Room boxCasePath [boxFrame rnd geo 2 0 [0]] (⟨fun p => decide (p = []), fun _ => none⟩ : Disk) := by
      refine ⟨hfree, fun p hp => ?_⟩
      simpa using ((box_names rnd geo 2 0 [0]).ne hp).2.2
    exact (R.made (box_names rnd geo 2 0 [0])).2 _ (by simp [paths, boxFrame])
  · have g0 : numbered (chars "ensight/data/mesh.") (0 + 1) (chars "geo") = chars "ensight/data/mesh.00001.geo" := by
      rw [Nat.zero_add, box_one]; decide +kernel
    rw [← g0]; exact Disk.put_same ..
  · rw [Disk.put_ne]
    · rfl
    · intro h
      exact (box_names rnd geo 2 0 [0]).case_new (by rw [show boxCasePath = _ from h]; simp [paths, boxFrame])

end Verif.Ensight
