import Verif.Ensight.Session
import Verif.Ensight.CaseLemmas
import Verif.MeshFile.Lemmas
import Verif.Average.DriverLemmas

/-! # Lemmas: the two writers as sessions -/

namespace Verif.Ensight
open MeshFile

/-! ### Names -/

theorem fmt05_dig (n : ℕ) : ∀ c ∈ fmt05 n, isDig c = true := by
  intro c hc
  rcases List.mem_append.1 hc with h | h
  · rw [(List.mem_replicate.1 h).2]; decide
  · exact dec_dig n c h

theorem digVal_fmt05 (n : ℕ) : digVal (fmt05 n) = n := by
  have : ∀ k (l : List Char), digVal (List.replicate k '0' ++ l) = digVal l := by
    intro k l
    induction k with
    | zero => rfl
    | succ k ih => rw [List.replicate_succ, List.cons_append]; exact ih
  unfold fmt05
  rw [this, digVal_dec]

theorem noDig_dot (t : List Char) : NoDig ('.' :: t) := by
  intro c u h; rw [← (List.cons.inj h).1]; decide

/-- A name with a number in it. -/
def numbered (pre : List Char) (n : ℕ) (suf : List Char) : List Char := pre ++ (fmt05 n ++ '.' :: suf)

theorem numbered_inj {pre : List Char} {m n : ℕ} {s t : List Char} (h : numbered pre m s = numbered pre n t) : m = n ∧ s = t := by
  have h := List.append_cancel_left h
  have h1 := congrArg (List.takeWhile isDig) h
  have h2 := congrArg (List.dropWhile isDig) h
  rw [(take_digits (fmt05_dig m) (noDig_dot s)).1, (take_digits (fmt05_dig n) (noDig_dot t)).1] at h1
  rw [(take_digits (fmt05_dig m) (noDig_dot s)).2, (take_digits (fmt05_dig n) (noDig_dot t)).2] at h2
  refine ⟨?_, (List.cons.inj h2).2⟩
  rw [← digVal_fmt05 m, h1, digVal_fmt05]

theorem fmt05_length {n : ℕ} (h : n < 10 ^ 5) : (fmt05 n).length = 5 := by
  have := dec_length (by decide) h
  unfold fmt05; rw [List.length_append, List.length_replicate]; omega

theorem digitsN_zero (k : ℕ) : digitsN k 0 = List.replicate k '0' := by
  induction k with
  | zero => rfl
  | succ k ih => rw [digitsN, Nat.zero_div, ih, List.replicate_succ']; rfl

theorem digitsN_dec {k n : ℕ} (hk : 1 ≤ k) (h : n < 10 ^ k) : digitsN k n = List.replicate (k - (dec n).length) '0' ++ dec n := by
  induction k generalizing n with
  | zero => omega
  | succ k ih =>
    rw [digitsN, dec]
    split_ifs with h10
    · rw [Nat.div_eq_of_lt h10, digitsN_zero, Nat.mod_eq_of_lt h10]; simp
    · have hk1 : 1 ≤ k := by
        rcases Nat.eq_zero_or_pos k with rfl | h0
        · simp at h; omega
        · exact h0
      rw [ih hk1 (by rw [pow_succ] at h; omega)]
      simp [List.append_assoc]

theorem fmt05_digitsN {n : ℕ} (h : n < 10 ^ 5) : fmt05 n = digitsN 5 n := by
  rw [digitsN_dec (by decide) h]; rfl

theorem parent_append {a b : List Char} (h : '/' ∉ b) : parent (a ++ '/' :: b) = a := by
  unfold parent
  rw [List.reverse_append, List.reverse_cons, List.append_assoc, List.dropWhile_append_of_pos (by
    intro c hc; simp only [decide_eq_true_eq]; rintro rfl; exact h (by simpa using hc))]
  simp

theorem resolve_pattern (a b : List Char) (ha : '*' ∉ a) (hb : ∀ c t, b = c :: t → c ≠ '*') (n : ℕ) :
    resolve (a ++ chars "*****" ++ b) n = a ++ digitsN 5 n ++ b := by
  have h1 : (a ++ chars "*****" ++ b).dropWhile (· ≠ '*') = chars "*****" ++ b := by
    rw [List.append_assoc, List.dropWhile_append_of_pos (by intro c hc; simp only [decide_eq_true_eq]; rintro rfl; exact ha hc)]
    rfl
  have h2 : (a ++ chars "*****" ++ b).takeWhile (· ≠ '*') = a := by
    rw [List.append_assoc, List.takeWhile_append_of_pos (by intro c hc; simp only [decide_eq_true_eq]; rintro rfl; exact ha hc)]
    have : (chars "*****" ++ b).takeWhile (· ≠ '*') = [] := rfl
    rw [this, List.append_nil]
  have hb' : b.takeWhile (· = '*') = [] ∧ b.dropWhile (· = '*') = b := by
    cases b with
    | nil => exact ⟨rfl, rfl⟩
    | cons c t => have := hb c t rfl; simp [this]
  have h3 : (chars "*****" ++ b).takeWhile (· = '*') = chars "*****" := by
    rw [List.takeWhile_append_of_pos (by decide), hb'.1, List.append_nil]
  have h4 : (chars "*****" ++ b).dropWhile (· = '*') = b := by
    rw [List.dropWhile_append_of_pos (by decide), hb'.2]
  unfold resolve
  simp only [h1, h2, h3, h4]
  rfl

/-! ### Texts -/

theorem fmtD10_one : fmtD 10 1 = chars "         1" := by
  have : dec 1 = ['1'] := by rw [dec]; rfl
  unfold fmtD
  rw [show (1 : ℤ).natAbs = 1 from rfl, this]
  decide

theorem head_scalar : chars "Per_elem scalar values\npart\n" ++ (fmtD 10 1 ++ ['\n']) ++ chars "hexa8\n" =
    chars "Per_elem scalar values\npart\n         1\nhexa8\n" := by rw [fmtD10_one]; decide
theorem head_vector : chars "Per_node vector values\npart\n" ++ (fmtD 10 1 ++ ['\n']) ++ chars "coordinates\n" =
    chars "Per_node vector values\npart\n         1\ncoordinates\n" := by rw [fmtD10_one]; decide

theorem scalarText_spec (rnd : ℝ → ℕ) {C : ℕ} (var : ℕ) {f : Arr (ℕ → ℝ)} (h : C ≤ f.size) :
    scalarText rnd C var f = some (scalarFile rnd C fun c => f.val c var) := by
  unfold scalarText
  obtain ⟨r, e, hr⟩ := loopM_spec (n := C) (body := fun c t => do
      let row ← f.get c
      pure (t ++ (fmtE rnd 12 (row var) ++ ['\n'])))
    (s := chars "Per_elem scalar values\npart\n" ++ (fmtD 10 1 ++ ['\n']) ++ chars "hexa8\n")
    (fun c r => r = scalarFile rnd c fun c => f.val c var) (by rw [scalarFile, head_scalar]; simp) (by
      intro c s hc hs
      refine ⟨_, by rw [Arr.get_lt (show c < f.size by omega)]; rfl, ?_⟩
      rw [hs]; simp [scalarFile, List.range_succ, List.append_assoc])
  rw [← hr]; exact e

theorem fm_range (f : ℕ → List Char) (n : ℕ) : fm f 0 n = (List.range n).flatMap f := by
  induction n with
  | zero => rfl
  | succ n ih => rw [fm_snoc, ih, List.range_succ, List.flatMap_append]; simp

theorem vecText_spec (rnd : ℝ → ℕ) {N : ℕ} {x : Arr (ℕ → ℝ)} (h : N ≤ x.size) :
    vecText rnd N x = some (vectorFile rnd N x.val) := by
  unfold vecText
  rw [writeCoords_spec rnd x h, fm_range]
  simp only [fm_range]
  rw [head_vector]; rfl

theorem boxVarText_spec (rnd : ℝ → ℕ) (C : ℕ) : boxVarText rnd C = scalarFile rnd C fun _ => 1 := by
  unfold boxVarText
  refine loop_inv (fun c r => r = scalarFile rnd c fun _ => 1) (by rw [scalarFile, head_scalar]; simp) ?_
  intro c s hc hs
  rw [hs]; simp [scalarFile, List.range_succ, List.append_assoc]

/-! ### The dumps of the Average example -/

/-- The last parts of the names of the six data files. -/
def suffixes : List Text :=
  [chars "geo", chars "cell_field1", chars "elem", chars "elem_id", chars "cell_field2", chars "position"]

/-- The contents of the six data files of a dump. -/
noncomputable def contents (rnd : ℝ → ℕ) (geo : Text) (N C : ℕ) (d : Average.Dump) : List Text :=
  [geo, scalarFile rnd C fun c => d.fields.val c 0, scalarFile rnd C fun c => d.fields.val c 1,
    scalarFile rnd C fun c => d.fields.val c 2, scalarFile rnd C fun c => d.fields.val c 3, vectorFile rnd N d.positions.val]

/-- The lines of the case file before the number of steps. -/
def caseHeadLines : List Text :=
  [chars "FORMAT",
    chars "type: ensight gold",
    chars "GEOMETRY",
    chars "model: data/Testing.*****.geo",
    chars "VARIABLE",
    chars "scalar per element: cell_field1 data/Testing.*****.cell_field1",
    chars "scalar per element: elem data/Testing.*****.elem",
    chars "scalar per element: elem_id data/Testing.*****.elem_id",
    chars "scalar per element: cell_field2 data/Testing.*****.cell_field2",
    chars "vector per node: position data/Testing.*****.position",
    chars "TIME",
    chars "time set: 1"]
/-- The sections of the case file before the number of steps. -/
def caseHead : Text := caseHeadLines.flatMap fun l => l ++ ['\n']
/-- What is between the number of steps and the time values. -/
def caseMid : Text := chars "filename start number: 0\nfilename increment: 1\ntime values: \n"

/-- The case file. -/
noncomputable def caseFile (rnd : ℝ → ℕ) (d : Average.Dump) : Text :=
  caseHead ++ (chars "number of steps: " ++ fmtD 4 ((d.id + 1 : ℕ) : ℤ) ++ '\n' :: (caseMid ++ timesText rnd d.times))

/-- The names and contents of the data files of a dump. -/
noncomputable def dataOf (rnd : ℝ → ℕ) (geo : Text) (N C : ℕ) (d : Average.Dump) : List (Text × Text) :=
  (suffixes.zip (contents rnd geo N C d)).map fun w => (numbered (chars "ensight/data/Testing.") d.id w.1, w.2)

/-- A dump as a frame. -/
noncomputable def frame (rnd : ℝ → ℕ) (geo : Text) (N C : ℕ) (d : Average.Dump) : Frame :=
  ⟨dataOf rnd geo N C d, caseFile rnd d⟩

theorem caseText_spec (rnd : ℝ → ℕ) (d : Average.Dump) : caseText rnd d = some (caseFile rnd d) := by
  unfold caseText
  have s1 : sprintf 128 (chars "model: data/Testing.*****.geo\n") = some (chars "model: data/Testing.*****.geo\n") := by decide
  have s2 : ∀ var < 4, sprintf 128 (chars "scalar per element: " ++ scalarName var ++ chars " data/Testing.*****." ++ scalarName var ++ ['\n']) =
      some (chars "scalar per element: " ++ scalarName var ++ chars " data/Testing.*****." ++ scalarName var ++ ['\n']) := by decide
  have s3 : ∀ var < 1, sprintf 128 (chars "vector per node: " ++ vecName var ++ chars " data/Testing.*****." ++ vecName var ++ ['\n']) =
      some (chars "vector per node: " ++ vecName var ++ chars " data/Testing.*****." ++ vecName var ++ ['\n']) := by decide
  simp only [s1, loopM, s2 0 (by decide), s2 1 (by decide), s2 2 (by decide), s2 3 (by decide), s3 0 (by decide), bind, pure, Option.bind_some]
  refine congrArg some ?_
  unfold caseFile
  have e : ((d.id : ℤ) + 1) = ((d.id + 1 : ℕ) : ℤ) := by push_cast; rfl
  rw [e]
  have e1 : chars "FORMAT\ntype: ensight gold\nGEOMETRY\n" ++ chars "model: data/Testing.*****.geo\n" ++ chars "VARIABLE\n" ++
      (chars "scalar per element: " ++ scalarName 0 ++ chars " data/Testing.*****." ++ scalarName 0 ++ ['\n']) ++
      (chars "scalar per element: " ++ scalarName 1 ++ chars " data/Testing.*****." ++ scalarName 1 ++ ['\n']) ++
      (chars "scalar per element: " ++ scalarName 2 ++ chars " data/Testing.*****." ++ scalarName 2 ++ ['\n']) ++
      (chars "scalar per element: " ++ scalarName 3 ++ chars " data/Testing.*****." ++ scalarName 3 ++ ['\n']) ++
      (chars "vector per node: " ++ vecName 0 ++ chars " data/Testing.*****." ++ vecName 0 ++ ['\n']) ++
      chars "TIME\ntime set: 1\nnumber of steps: " = caseHead ++ chars "number of steps: " := by decide +kernel
  have e2 : chars "\nfilename start number: 0\nfilename increment: 1\ntime values: \n" = '\n' :: caseMid := by decide +kernel
  rw [e1, e2]
  simp only [List.append_assoc, List.cons_append]

/-- The path of the case file. -/
def casePath : Text := chars "ensight/Testing.case"

theorem sprintf_numbered {id : ℕ} (hid : id < 10 ^ 5) {suf : Text} (h : suf.length ≤ 80) :
    sprintf 128 (chars "ensight/data/Testing." ++ fmt05 id ++ '.' :: suf) = some (numbered (chars "ensight/data/Testing.") id suf) := by
  unfold sprintf numbered
  have h1 := fmt05_length hid
  have h2 : (chars "ensight/data/Testing.").length = 21 := by decide
  rw [if_pos, List.append_assoc]
  simp only [List.length_append, List.length_cons, h1, h2]
  omega

theorem dumpOps_spec (rnd : ℝ → ℕ) {coords : Arr (ℕ → ℝ)} {cells : Arr ℤ} {N C : ℕ} {geo : Text}
    (hg : writeAvg rnd coords cells N C = some geo) {d : Average.Dump} (hid : d.id < 10 ^ 5) (hf : C ≤ d.fields.size)
    (hp : N ≤ d.positions.size) : dumpOps rnd coords cells N C d = some ((frame rnd geo N C d).ops casePath) := by
  unfold dumpOps
  have p0 : sprintf 128 (chars "ensight/data/Testing." ++ fmt05 d.id ++ chars ".geo") = _ :=
    sprintf_numbered hid (suf := chars "geo") (by decide)
  have ps : ∀ var < 4, sprintf 128 (chars "ensight/data/Testing." ++ fmt05 d.id ++ chars "." ++ scalarName var) =
      some (numbered (chars "ensight/data/Testing.") d.id (scalarName var)) := by
    intro var hv
    rw [List.append_assoc]
    exact sprintf_numbered hid (by revert var; decide)
  have pv : ∀ var < 1, sprintf 128 (chars "ensight/data/Testing." ++ fmt05 d.id ++ chars "." ++ vecName var) =
      some (numbered (chars "ensight/data/Testing.") d.id (vecName var)) := by
    intro var hv
    rw [List.append_assoc]
    exact sprintf_numbered hid (by revert var; decide)
  have pc : sprintf 128 (chars "ensight/Testing.case") = some casePath := by decide
  simp only [p0, hg, loopM, ps 0 (by decide), ps 1 (by decide), ps 2 (by decide), ps 3 (by decide), pv 0 (by decide), pc,
    scalarText_spec rnd _ hf, vecText_spec rnd hp, caseText_spec, bind, pure, Option.bind_some]
  refine congrArg some ?_
  simp only [List.append_assoc]
  rfl

theorem runOps_spec (rnd : ℝ → ℕ) {coords : Arr (ℕ → ℝ)} {cells : Arr ℤ} {N C : ℕ} {geo : Text}
    (hg : writeAvg rnd coords cells N C = some geo) :
    ∀ dumps : List Average.Dump, (∀ d ∈ dumps, d.id < 10 ^ 5 ∧ C ≤ d.fields.size ∧ N ≤ d.positions.size) →
      runOps rnd coords cells N C dumps = some (session casePath (dumps.map (frame rnd geo N C)))
  | [], _ => rfl
  | d :: l, h => by
    obtain ⟨h1, h2, h3⟩ := h d (by simp)
    unfold runOps
    rw [dumpOps_spec rnd hg h1 h2 h3, runOps_spec rnd hg l fun e he => h e (by simp [he])]
    rfl

/-- The data paths of the dumps. -/
theorem paths_frames (rnd : ℝ → ℕ) (geo : Text) (N C : ℕ) (dumps : List Average.Dump) :
    paths (dumps.map (frame rnd geo N C)) =
      dumps.flatMap fun d => suffixes.map fun s => numbered (chars "ensight/data/Testing.") d.id s := by
  unfold paths
  rw [List.flatMap_map]
  rfl

theorem numbered_parent (pre : Text) (id : ℕ) {suf : Text} (h : '/' ∉ suf) {p : Text} (hp : '/' ∉ p) :
    parent (numbered (pre ++ '/' :: p) id suf) = pre := by
  unfold numbered
  rw [List.append_assoc, List.cons_append]
  refine parent_append fun hm => ?_
  rcases List.mem_append.1 hm with hm | hm
  · exact hp hm
  · rcases List.mem_append.1 hm with hm | hm
    · exact (nl_dig (fmt05_dig _ _ hm)).2.1 rfl
    · rcases List.mem_cons.1 hm with hm | hm
      · revert hm; decide
      · exact h hm

theorem names_frames (rnd : ℝ → ℕ) (geo : Text) (N C : ℕ) {dumps : List Average.Dump} (h : (dumps.map Average.Dump.id).Nodup) :
    Names casePath (dumps.map (frame rnd geo N C)) := by
  have hp : ∀ p ∈ paths (dumps.map (frame rnd geo N C)), ∃ id, ∃ s ∈ suffixes, p = numbered (chars "ensight/data/Testing.") id s := by
    intro p hp
    rw [paths_frames] at hp
    obtain ⟨d, -, hp⟩ := List.mem_flatMap.1 hp
    obtain ⟨s, hs, rfl⟩ := List.mem_map.1 hp
    exact ⟨_, s, hs, rfl⟩
  have sl : ∀ s ∈ suffixes, '/' ∉ s := by decide
  refine ⟨?_, ?_, ?_, by decide, by decide⟩
  · rw [paths_frames]
    rw [List.nodup_flatMap]
    constructor
    · intro d _
      exact List.Nodup.map (fun a b e => (numbered_inj e).2) (by decide)
    · rw [List.Nodup, List.pairwise_map] at h
      refine h.imp fun {a b} hab => ?_
      intro x hx hy
      obtain ⟨s, -, rfl⟩ := List.mem_map.1 hx
      obtain ⟨t, -, e⟩ := List.mem_map.1 hy
      exact hab (numbered_inj e).1.symm
  · intro hm
    obtain ⟨id, s, -, e⟩ := hp _ hm
    have := congrArg (List.take 9) e
    unfold numbered at this
    rw [List.take_append_of_le_length (by decide)] at this
    revert this
    decide
  · intro p hm
    obtain ⟨id, s, hs, rfl⟩ := hp p hm
    exact numbered_parent (chars "ensight/data") id (sl s hs) (p := chars "Testing.") (by decide)

theorem lines_flat {L : List Text} (h : ∀ l ∈ L, '\n' ∉ l) : lines (L.flatMap fun l => l ++ ['\n']) = L := by
  induction L with
  | nil => rfl
  | cons l L ih =>
    rw [List.flatMap_cons, List.append_assoc, List.singleton_append, lines_append (h l (by simp)), ih fun m hm => h m (by simp [hm])]

theorem lines_caseHead : lines caseHead = caseHeadLines := lines_flat (by decide +kernel)
theorem case_a1 : caseHead.getLast? = some '\n' := by
  unfold caseHead caseHeadLines
  simp only [List.flatMap_cons, List.flatMap_nil, List.append_nil, ← List.append_assoc, List.getLast?_concat]
theorem case_a2 : caseMid.getLast? = some '\n' := by decide +kernel
theorem case_a3 : lines caseMid = [chars "filename start number: 0", chars "filename increment: 1"] ++ [chars "time values: "] := by decide +kernel
theorem case_a4 : (lines caseHead).findSome? (after (chars "number of steps:")) = none := by
  rw [lines_caseHead]; decide +kernel
theorem case_a5 : (lines caseHead).findSome? (after (chars "filename start number:")) = none := by
  rw [lines_caseHead]; decide +kernel
theorem case_a6 : number (chars "filename start number:") [chars "filename start number: 0", chars "filename increment: 1"] = some 0 := by decide +kernel
theorem case_a7 : ∀ l ∈ lines caseHead, l ≠ chars "time values: " := by
  rw [lines_caseHead]; decide +kernel
theorem case_a8 : ∀ l ∈ [chars "filename start number: 0", chars "filename increment: 1"], l ≠ chars "time values: " := by decide +kernel
theorem case_a9 : (lines caseMid).filterMap filePattern = [] := by decide +kernel
theorem case_b : (lines caseHead).filterMap filePattern = suffixes.map fun s => chars "data/Testing.*****." ++ s := by
  rw [lines_caseHead]; decide +kernel

/-- A viewer reads a whole case file. -/
theorem readCase_caseFile {rnd : ℝ → ℕ} (hr : Nearest rnd) {d : Average.Dump} (hd : d.times.length = d.id + 1) :
    readCase (caseFile rnd d) = some ⟨suffixes.map fun s => chars "data/Testing.*****." ++ s, d.id + 1, 0, d.times.map (printed rnd)⟩ := by
  have key := readCase_whole hr case_a1 case_a2 case_a3 case_a4 case_a5 case_a6 case_a7 case_a8 case_a9 d.times
  rw [case_b, hd] at key
  unfold caseFile
  exact key

end Verif.Ensight
