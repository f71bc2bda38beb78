import Verif.Ensight.FrameLemmas
import Verif.Average.DriverTheorems
import Verif.MeshFile.Theorems

/-!
# C105: graphics dumps and processes that die
-/

namespace Verif.Ensight
open MeshFile

/-- The dumps of a run: numbered from 0, each with the times so far. -/
def InOrder (N C : ℕ) (dumps : List Average.Dump) : Prop :=
  dumps.length ≤ 10 ^ 5 ∧ ∀ j d, dumps[j]? = some d → d.id = j ∧ d.times.length = j + 1 ∧ C ≤ d.fields.size ∧ N ≤ d.positions.size

/-- The disk has room: the working directory exists, `ensight` and `ensight/data` are directories or do not exist, and no
directory is in the place of a file of the dumps. -/
structure HasRoom (dumps : List Average.Dump) (disk : Disk) : Prop where
  free : disk.Free
  case : disk.dirs (chars "ensight/Testing.case") = false
  data : ∀ d ∈ dumps, ∀ s ∈ suffixes, disk.dirs (numbered (chars "ensight/data/Testing.") d.id s) = false

/-- What a viewer that reads the case file `c` finds on the disk: for every step of the case file the six files it names are there,
whole, with the data of that dump. -/
def Sees (rnd : ℝ → ℕ) (geo : Text) (N C : ℕ) (dumps : List Average.Dump) (disk : Disk) (c : Case) : Prop :=
  0 < c.steps ∧ c.steps ≤ dumps.length ∧ c.patterns.length = 6 ∧
    (∀ d, dumps[c.steps - 1]? = some d → c.times = d.times.map (printed rnd)) ∧
    ∀ i < c.steps, ∀ d, dumps[i]? = some d → ∀ v < 6,
      disk.files (chars "ensight/" ++ resolve (c.patterns.getD v []) (c.start + i).toNat) = some ((contents rnd geo N C d).getD v [])

theorem InOrder.nodup {N C : ℕ} {dumps : List Average.Dump} (h : InOrder N C dumps) : (dumps.map Average.Dump.id).Nodup := by
  rw [List.nodup_iff_getElem?_ne_getElem?]
  intro i j hij hj
  rw [List.length_map] at hj
  have hi : i < dumps.length := by omega
  rw [List.getElem?_map, List.getElem?_map, List.getElem?_eq_getElem hi, List.getElem?_eq_getElem hj]
  simp only [Option.map_some, ne_eq, Option.some.injEq]
  rw [(h.2 i _ (List.getElem?_eq_getElem hi)).1, (h.2 j _ (List.getElem?_eq_getElem hj)).1]
  omega

theorem InOrder.mem {N C : ℕ} {dumps : List Average.Dump} (h : InOrder N C dumps) :
    ∀ d ∈ dumps, d.id < 10 ^ 5 ∧ C ≤ d.fields.size ∧ N ≤ d.positions.size := by
  intro d hd
  obtain ⟨j, hj⟩ := List.getElem?_of_mem hd
  obtain ⟨h1, -, h3, h4⟩ := h.2 j d hj
  have := (List.getElem?_eq_some_iff.1 hj).1
  exact ⟨by have := h.1; omega, h3, h4⟩

theorem HasRoom.room {dumps : List Average.Dump} {disk : Disk} (h : HasRoom dumps disk) (rnd : ℝ → ℕ) (geo : Text) (N C : ℕ) :
    Room casePath (dumps.map (frame rnd geo N C)) disk := by
  refine ⟨h.free, fun p hp => ?_⟩
  rcases List.mem_cons.1 hp with rfl | hp
  · exact h.case
  · rw [paths_frames] at hp
    obtain ⟨d, hd, hp⟩ := List.mem_flatMap.1 hp
    obtain ⟨s, hs, rfl⟩ := List.mem_map.1 hp
    exact h.data d hd s hs

theorem upto_zero {cp : Text} {fs : List Frame} {d : Disk} (h : d.files cp = none) : Upto cp fs d 0 d :=
  ⟨fun i hi => absurd hi (Nat.not_lt_zero i), .inl ⟨rfl, h⟩, fun _ _ => rfl⟩

theorem caseFile_end (rnd : ℝ → ℕ) {d : Average.Dump} (h : d.times ≠ []) : ∃ u, caseFile rnd d = u ++ ['\n'] := by
  obtain ⟨u, hu⟩ := timesText_end rnd h
  refine ⟨caseHead ++ (chars "number of steps: " ++ fmtD 4 ((d.id + 1 : ℕ) : ℤ) ++ '\n' :: (caseMid ++ u)), ?_⟩
  unfold caseFile
  rw [hu]
  simp [List.append_assoc]

/-- Pattern and number give the name that the writer used. -/
theorem resolve_numbered {id : ℕ} (h : id < 10 ^ 5) (s : Text) :
    chars "ensight/" ++ resolve (chars "data/Testing.*****." ++ s) id = numbered (chars "ensight/data/Testing.") id s := by
  have e : chars "data/Testing.*****." ++ s = chars "data/Testing." ++ chars "*****" ++ '.' :: s := by
    have : chars "data/Testing.*****." = chars "data/Testing." ++ chars "*****" ++ ['.'] := by decide +kernel
    rw [this]; simp
  rw [e, resolve_pattern _ _ (by decide) (by intro c t h; rw [← (List.cons.inj h).1]; decide)]
  unfold numbered
  rw [fmt05_digitsN h]
  have : chars "ensight/data/Testing." = chars "ensight/" ++ chars "data/Testing." := by decide +kernel
  rw [this]; simp [List.append_assoc]

/-- The files of the first dumps are where a viewer looks for them. -/
theorem upto_data {rnd : ℝ → ℕ} {geo : Text} {N C : ℕ} {dumps : List Average.Dump} (ho : InOrder N C dumps) {d₀ d' : Disk} {k : ℕ}
    (U : Upto casePath (dumps.map (frame rnd geo N C)) d₀ k d') {i : ℕ} (hi : i < k) {d : Average.Dump} (hd : dumps[i]? = some d)
    {v : ℕ} (hv : v < 6) : d'.files (numbered (chars "ensight/data/Testing.") i (suffixes.getD v [])) = some ((contents rnd geo N C d).getD v []) := by
  have hid := (ho.2 i d hd).1
  refine U.data i hi (frame rnd geo N C d) (by rw [List.getElem?_map, hd]; rfl)
    (numbered (chars "ensight/data/Testing.") i (suffixes.getD v []), (contents rnd geo N C d).getD v []) ?_
  rw [← hid]
  show _ ∈ dataOf rnd geo N C d
  unfold dataOf
  refine List.mem_map.2 ⟨(suffixes.getD v [], (contents rnd geo N C d).getD v []), ?_, rfl⟩
  interval_cases v <;> simp [suffixes, contents]

theorem sees_of_upto {rnd : ℝ → ℕ} (hr : Nearest rnd) {geo : Text} {N C : ℕ} {dumps : List Average.Dump} (ho : InOrder N C dumps)
    {d₀ d' : Disk} {k : ℕ} (U : Upto casePath (dumps.map (frame rnd geo N C)) d₀ k d') {t : Text} (ht : d'.files casePath = some t)
    {c : Case} (hc : readCase t = some c) : c.steps = k ∧ Sees rnd geo N C dumps d' c := by
  rcases U.case with ⟨-, h⟩ | ⟨F, u, hk, hF, hu, h⟩
  · rw [h] at ht; cases ht
  rw [List.getElem?_map] at hF
  obtain ⟨d, hd, rfl⟩ := Option.map_eq_some_iff.1 hF
  obtain ⟨h1, h2, -⟩ := ho.2 _ _ hd
  have hlen := (List.getElem?_eq_some_iff.1 hd).1
  obtain rfl : u = t := Option.some.inj (h.symm.trans ht)
  have hw := readCase_caseFile hr (d := d) (by omega)
  have hne : d.times ≠ [] := by intro e; rw [e] at h2; simp at h2
  obtain ⟨w, ew⟩ := caseFile_end rnd hne
  have : u = caseFile rnd d := by
    by_contra hcut
    have hu' : u <+: caseFile rnd d := hu
    rw [ew] at hw hu' hcut
    rw [readCase_cut hw (Nat.succ_pos _) hu' hcut] at hc
    cases hc
  subst this
  rw [hw] at hc
  cases hc
  have hk1 : d.id + 1 = k := by omega
  refine ⟨hk1, Nat.succ_pos _, by show d.id + 1 ≤ _; omega, by simp [suffixes], ?_, ?_⟩
  · intro d' hd'
    rw [show d.id + 1 - 1 = k - 1 by omega, hd] at hd'
    cases hd'; rfl
  · intro i hi di hdi v hv
    have hi' : i < k := by have : i < d.id + 1 := hi; omega
    have e : (suffixes.map fun s => chars "data/Testing.*****." ++ s).getD v [] = chars "data/Testing.*****." ++ suffixes.getD v [] := by
      interval_cases v <;> rfl
    have hz : ((0 : ℤ) + (i : ℤ)).toNat = i := by simp
    show d'.files (chars "ensight/" ++ resolve ((suffixes.map fun s => chars "data/Testing.*****." ++ s).getD v []) ((0 : ℤ) + (i : ℤ)).toNat) = _
    rw [e, hz, resolve_numbered (by have := ho.1; omega)]
    exact upto_data ho U hi' hdi hv

/-- **C105**: Let a run of the Average example write its dumps into a directory without a case file of an earlier run.  Whenever
the process dies, a viewer that accepts the case file finds all files of all time steps listed there whole, with the data
of these dumps, and no file outside `ensight/` has changed. -/
theorem C105_crash {rnd : ℝ → ℕ} (hr : Nearest rnd) {coords : Arr (ℕ → ℝ)} {cells : Arr ℤ} {N C : ℕ} {geo : Text}
    (hg : writeAvg rnd coords cells N C = some geo) {dumps : List Average.Dump} (ho : InOrder N C dumps) {disk : Disk}
    (hd : HasRoom dumps disk) (hnew : disk.files (chars "ensight/Testing.case") = none) :
    ∃ ops, runOps rnd coords cells N C dumps = some ops ∧ ∀ disk', Crash ⟨disk, none⟩ ops disk' →
      (∀ t c, disk'.files (chars "ensight/Testing.case") = some t → readCase t = some c → Sees rnd geo N C dumps disk' c) ∧
      ∀ q, ¬ chars "ensight/" <+: q → disk'.files q = disk.files q := by
  have N' := names_frames rnd geo N C ho.nodup
  refine ⟨_, runOps_spec rnd hg dumps ho.mem, fun disk' h => ?_⟩
  obtain ⟨j, -, -, U⟩ := (session_run N' _ 0 disk (by rw [Nat.zero_add]) (hd.room rnd geo N C) (upto_zero hnew)).2 disk' h
  refine ⟨fun t c ht hc => (sees_of_upto hr ho U ht hc).2, fun q hq => U.other q fun hm => hq ?_⟩
  rcases List.mem_cons.1 hm with rfl | hm
  · exact ⟨chars "Testing.case", by decide⟩
  · rw [paths_frames] at hm
    obtain ⟨d, -, hm⟩ := List.mem_flatMap.1 hm
    obtain ⟨s, -, rfl⟩ := List.mem_map.1 hm
    refine ⟨chars "data/Testing." ++ (fmt05 d.id ++ '.' :: s), ?_⟩
    unfold numbered
    rw [← List.append_assoc]
    have : chars "ensight/data/Testing." = chars "ensight/" ++ chars "data/Testing." := by decide +kernel
    rw [this]

/-- **C105**: A run that is not disturbed ends with a case file that lists all dumps, and a viewer finds all of them. -/
theorem C105_finished {rnd : ℝ → ℕ} (hr : Nearest rnd) {coords : Arr (ℕ → ℝ)} {cells : Arr ℤ} {N C : ℕ} {geo : Text}
    (hg : writeAvg rnd coords cells N C = some geo) {dumps : List Average.Dump} (ho : InOrder N C dumps) (hne : dumps ≠ [])
    {disk : Disk} (hd : HasRoom dumps disk) (hnew : disk.files (chars "ensight/Testing.case") = none) :
    ∃ ops disk' t c, runOps rnd coords cells N C dumps = some ops ∧ exec ops ⟨disk, none⟩ = some ⟨disk', none⟩ ∧
      disk'.files (chars "ensight/Testing.case") = some t ∧ readCase t = some c ∧ c.steps = dumps.length ∧
      Sees rnd geo N C dumps disk' c := by
  have N' := names_frames rnd geo N C ho.nodup
  have hlen : 0 < dumps.length := List.length_pos_iff.2 hne
  obtain ⟨⟨disk', e, -, U, hl⟩, -⟩ := session_run N' _ 0 disk (by rw [Nat.zero_add]) (hd.room rnd geo N C) (upto_zero hnew)
  have hlt : dumps.length - 1 < dumps.length := by omega
  have hlast : (dumps.map (frame rnd geo N C))[(dumps.map (frame rnd geo N C)).length - 1]? = some (frame rnd geo N C dumps[dumps.length - 1]) := by
    rw [List.length_map, List.getElem?_map, List.getElem?_eq_getElem hlt]; rfl
  have ht := hl (by rw [List.length_map]; exact hlen) _ hlast
  obtain ⟨h1, h2, -⟩ := ho.2 _ _ (List.getElem?_eq_getElem hlt)
  have hc := readCase_caseFile hr (d := dumps[dumps.length - 1]) (by omega)
  obtain ⟨-, hs⟩ := sees_of_upto hr ho U ht hc
  exact ⟨_, disk', _, _, runOps_spec rnd hg dumps ho.mem, e, ht, hc, by show dumps[dumps.length - 1].id + 1 = _; omega, hs⟩

/-- **C105**: Once the first `k` dumps are written, their data files stay whole and unchanged wherever the process dies later, and
a case file that is accepted lists them. -/
theorem C105_durable {rnd : ℝ → ℕ} (hr : Nearest rnd) {coords : Arr (ℕ → ℝ)} {cells : Arr ℤ} {N C : ℕ} {geo : Text}
    (hg : writeAvg rnd coords cells N C = some geo) {dumps : List Average.Dump} (ho : InOrder N C dumps) {disk : Disk}
    (hd : HasRoom dumps disk) (hnew : disk.files (chars "ensight/Testing.case") = none) {k : ℕ} (hk : k ≤ dumps.length) :
    ∃ ops₁ ops₂ s, runOps rnd coords cells N C (dumps.take k) = some ops₁ ∧ runOps rnd coords cells N C (dumps.drop k) = some ops₂ ∧
      exec ops₁ ⟨disk, none⟩ = some s ∧ ∀ disk', Crash s ops₂ disk' →
        (∀ i < k, ∀ d, dumps[i]? = some d → ∀ v < 6,
          disk'.files (numbered (chars "ensight/data/Testing.") i (suffixes.getD v [])) = some ((contents rnd geo N C d).getD v [])) ∧
        ∀ t c, disk'.files (chars "ensight/Testing.case") = some t → readCase t = some c → k ≤ c.steps := by
  have N' := names_frames rnd geo N C ho.nodup
  have hlen : k ≤ (dumps.map (frame rnd geo N C)).length := by rw [List.length_map]; exact hk
  obtain ⟨d1, e1, R1, U1⟩ := session_prefix N' (hd.room rnd geo N C) (upto_zero hnew) k hlen
  refine ⟨_, _, ⟨d1, none⟩, runOps_spec rnd hg _ fun d h => ho.mem d (List.mem_of_mem_take h),
    runOps_spec rnd hg _ fun d h => ho.mem d (List.mem_of_mem_drop h), ?_, ?_⟩
  · rw [List.map_take]; exact e1
  · intro disk' h
    rw [List.map_drop] at h
    obtain ⟨j, hj, -, U⟩ := (session_run N' (dumps.length - k) k d1 (by rw [List.length_map]; omega) R1 U1).2 disk' h
    refine ⟨fun i hi d hdi v hv => upto_data ho U (by omega) hdi hv, fun t c ht hc => ?_⟩
    rw [(sees_of_upto hr ho U ht hc).1]; exact hj

/-- Hypotheses met: two dumps of a mesh of one cell, in an empty directory. -/
example {rnd : ℝ → ℕ} (hr : Nearest rnd) : ∃ geo, writeAvg rnd ⟨8, fun i d => (i + d : ℕ)⟩ ⟨8, fun i => (i : ℕ)⟩ 8 1 = some geo ∧
    InOrder 8 1 [⟨0, ⟨1, fun _ _ => 1⟩, ⟨8, fun i d => (i + d : ℕ)⟩, [0]⟩, ⟨1, ⟨1, fun _ _ => 2⟩, ⟨8, fun i d => (i + d : ℕ)⟩, [0, 1 / 2]⟩] ∧
    HasRoom [⟨0, ⟨1, fun _ _ => 1⟩, ⟨8, fun i d => (i + d : ℕ)⟩, [0]⟩, ⟨1, ⟨1, fun _ _ => 2⟩, ⟨8, fun i d => (i + d : ℕ)⟩, [0, 1 / 2]⟩]
      ⟨fun p => decide (p = []), fun _ => none⟩ := by
  obtain ⟨geo, -, hg, -⟩ := MeshFile.C53_restart_partial hr (⟨8, fun i d => (i + d : ℕ)⟩ : Arr (ℕ → ℝ)) (⟨8, fun i => (i : ℕ)⟩ : Arr ℤ)
    (N := 8) (C := 1) rfl rfl ⟨fun _ _ => 0, fun _ => 0, fun _ => 0⟩
  refine ⟨geo, hg, ⟨by simp, ?_⟩, ⟨by simp, .inr rfl, .inr rfl⟩, by decide, ?_⟩
  · intro j d hj
    have := (List.getElem?_eq_some_iff.1 hj).1
    simp only [List.length_cons, List.length_nil] at this
    interval_cases j <;> (cases hj; simp)
  · intro d _ s _
    unfold numbered
    simp [chars]

/-! ### Negations -/

/-- **C105**, negation: a case file of an earlier run is not removed first.  When the process of a new run in the same directory dies
early, a viewer accepts the old case file, and the geometry file of its first step is empty. -/
theorem C105_stale_negation {rnd : ℝ → ℕ} {coords : Arr (ℕ → ℝ)} {cells : Arr ℤ} {N C : ℕ} {geo : Text}
    (hg : writeAvg rnd coords cells N C = some geo) {dumps : List Average.Dump} (ho : InOrder N C dumps) (hne : dumps ≠ [])
    {disk : Disk} (hd : HasRoom dumps disk) {t : Text} (hold : disk.files (chars "ensight/Testing.case") = some t) :
    ∃ ops disk', runOps rnd coords cells N C dumps = some ops ∧ Crash ⟨disk, none⟩ ops disk' ∧
      disk'.files (chars "ensight/Testing.case") = some t ∧ disk'.files (chars "ensight/data/Testing.00000.geo") = some [] := by
  have N' := names_frames rnd geo N C ho.nodup
  obtain ⟨-, ok⟩ := (hd.room rnd geo N C).made N'
  obtain ⟨d, l, rfl⟩ := List.exists_cons_of_ne_nil hne
  have hid : d.id = 0 := (ho.2 0 d rfl).1
  have hp : numbered (chars "ensight/data/Testing.") d.id (chars "geo") ∈ paths ((d :: l).map (frame rnd geo N C)) := by
    rw [paths_frames]
    exact List.mem_flatMap.2 ⟨d, by simp, List.mem_map.2 ⟨_, by simp [suffixes], rfl⟩⟩
  have hname : numbered (chars "ensight/data/Testing.") d.id (chars "geo") = chars "ensight/data/Testing.00000.geo" := by
    rw [hid]
    unfold numbered
    rw [fmt05_digitsN (by decide)]
    decide
  refine ⟨_, disk.made.put (numbered (chars "ensight/data/Testing.") d.id (chars "geo")) [], runOps_spec rnd hg _ ho.mem, ?_, ?_, ?_⟩
  · refine Crash.left _ (a := (frame rnd geo N C d).ops casePath) ?_
    refine Crash.right (exec_mkdirs hd.free) (Crash.left _ ?_)
    refine Crash.left _ (a := write (numbered (chars "ensight/data/Testing.") d.id (chars "geo")) geo) ?_
    exact write_crash (ok _ (List.mem_cons_of_mem _ hp)) List.nil_prefix
  · rw [Disk.put_ne _ _ fun h => N'.case_new (by rw [show casePath = _ from h]; exact hp)]
    exact hold
  · rw [← hname, Disk.put_same]

/-- **C105**, negation: the case file is overwritten in place.  A process that dies while it writes the case file of the second dump
(or of a later one) leaves no usable case file, although the dumps are on the disk. -/
theorem C105_window_negation {rnd : ℝ → ℕ} {coords : Arr (ℕ → ℝ)} {cells : Arr ℤ} {N C : ℕ} {geo : Text}
    (hg : writeAvg rnd coords cells N C = some geo) {dumps : List Average.Dump} (ho : InOrder N C dumps) {disk : Disk}
    (hd : HasRoom dumps disk) (hnew : disk.files (chars "ensight/Testing.case") = none) {k : ℕ} (hk : k < dumps.length) :
    ∃ ops disk', runOps rnd coords cells N C dumps = some ops ∧ Crash ⟨disk, none⟩ ops disk' ∧
      (∀ i ≤ k, ∀ d, dumps[i]? = some d → ∀ v < 6,
        disk'.files (numbered (chars "ensight/data/Testing.") i (suffixes.getD v [])) = some ((contents rnd geo N C d).getD v [])) ∧
      disk'.files (chars "ensight/Testing.case") = some [] ∧ readCase [] = none := by
  have N' := names_frames rnd geo N C ho.nodup
  have hlen : k < (dumps.map (frame rnd geo N C)).length := by rw [List.length_map]; exact hk
  obtain ⟨d1, e1, R1, U1⟩ := session_prefix N' (hd.room rnd geo N C) (upto_zero hnew) k hlen.le
  have hF : (dumps.map (frame rnd geo N C))[k]? = some (frame rnd geo N C dumps[k]) := by
    rw [List.getElem?_map, List.getElem?_eq_getElem hk]; rfl
  obtain ⟨-, ok⟩ := R1.made N'
  have okD : ∀ w ∈ (frame rnd geo N C dumps[k]).data, d1.made.Ok w.1 := fun w hw => ok _ (List.mem_cons_of_mem _ (mem_paths hF hw))
  have okC : (d1.made.puts (frame rnd geo N C dumps[k]).data).Ok casePath := by
    unfold Disk.Ok; rw [Disk.puts_dirs]; exact ok casePath (by simp)
  obtain ⟨d2, hd2⟩ : ∃ d2, d2 = (d1.made.puts (frame rnd geo N C dumps[k]).data).put casePath [] := ⟨_, rfl⟩
  have hcrash : Crash ⟨d1, none⟩ ((frame rnd geo N C dumps[k]).ops casePath) d2 := by
    rw [hd2]
    exact Crash.right (exec_mkdirs R1.free) (Crash.right (exec_writes okD) (write_crash okC List.nil_prefix))
  have hcase : d2.files casePath = some [] := by rw [hd2, Disk.put_same]
  have U : Upto casePath (dumps.map (frame rnd geo N C)) disk (k + 1) d2 := by
    rcases (frame_run N' R1 U1 hF).2 d2 hcrash with U | U
    · refine ⟨fun i hi G hG w hw => ?_, .inr ⟨_, [], Nat.succ_pos _, by simpa using hF, List.nil_prefix, hcase⟩, U.other⟩
      by_cases hik : i < k
      · exact U.data i hik G hG w hw
      · obtain rfl : i = k := by omega
        rw [hF] at hG; cases hG
        have hwc : w.1 ≠ casePath := fun h => N'.case_new (h ▸ mem_paths hF hw)
        rw [hd2, Disk.put_ne _ _ hwc]
        exact Disk.puts_mem _ (N'.frame_nodup hF) hw
    · exact U
  refine ⟨_, d2, runOps_spec rnd hg _ ho.mem, ?_, fun i hi d hdi v hv => upto_data ho U (by omega) hdi hv, hcase, by decide⟩
  have es : session casePath (dumps.map (frame rnd geo N C)) = session casePath ((dumps.map (frame rnd geo N C)).take k) ++
      ((frame rnd geo N C dumps[k]).ops casePath ++ session casePath ((dumps.map (frame rnd geo N C)).drop (k + 1))) := by
    conv_lhs => rw [← List.take_append_drop k (dumps.map (frame rnd geo N C)), List.drop_eq_getElem_cons hlen]
    unfold session
    rw [List.flatMap_append, List.flatMap_cons, List.getElem_map]
  rw [es]
  exact Crash.right e1 (hcrash.left _)

/-! ### The runs of the Average example -/

theorem scalarFile_congr (rnd : ℝ → ℕ) (C : ℕ) {f g : ℕ → ℝ} (h : ∀ c < C, f c = g c) : scalarFile rnd C f = scalarFile rnd C g := by
  unfold scalarFile
  congr 1
  exact List.flatMap_congr fun c hc => by rw [h c (List.mem_range.1 hc)]

/-- **C105**: The whole run of the Average example.  Whenever the process dies, a case file that is accepted lists the times of the
dumps so far, and for each of them the file `cell_field1` holds the cell field after the number of cycles of that time. -/
theorem C105_average (m : Average.Mesh) (h : m.Ok) (he : m.ElemOk) (h0 : m.SetOk 0) (h3 : m.SetOk 3) (hx : m.coords.size = m.nodes)
    (cfg : Average.Settings) (hc : m.cells = m.elems * Average.numSub cfg.order ^ 3) (hi : 1 ≤ cfg.cycIval) (ht : cfg.tfinal ≤ 10 ^ 8)
    (hdt : 0 ≤ cfg.dtIval) (hroom : cfg.loopDumps + 2 ≤ 250) (j1 j2 : ℕ → ℕ → ℝ) (jt : ℕ → ℝ) (s : Average.State)
    (h1 : s.node.size = m.nodes) (h2 : s.cell.size = m.cells) {rnd : ℝ → ℕ} (hr : Nearest rnd) (cells : Arr ℤ)
    (hcells : cells.size = m.cells * 8) (disk : Disk) (hfree : disk.Free) (hfile : ∀ p, chars "ensight/" <+: p → p ≠ chars "ensight/data" → disk.dirs p = false)
    (hnew : disk.files (chars "ensight/Testing.case") = none) :
    ∃ r ops, Average.driver m cfg j1 j2 jt s = some r ∧ runOps rnd m.coords cells m.nodes m.cells r.dumps = some ops ∧
      ∀ disk', Crash ⟨disk, none⟩ ops disk' → ∀ t c, disk'.files (chars "ensight/Testing.case") = some t → readCase t = some c →
        0 < c.steps ∧ c.steps ≤ cfg.loopDumps + 2 ∧
        c.times = (List.range c.steps).map (fun i => printed rnd ((cfg.dumpCycle i : ℝ) / 1000)) ∧
        ∀ i < c.steps, ∃ si, Average.cycles m (cfg.dumpCycle i) s = some si ∧
          disk'.files (numbered (chars "ensight/data/Testing.") i (chars "cell_field1")) = some (scalarFile rnd m.cells si.cell.val) := by
  obtain ⟨r, e, hl, -, -, hd⟩ := Average.C75_driver_partial m h he h0 h3 hx cfg hc hi ht hdt hroom j1 j2 jt s h1 h2
  have ho : InOrder m.nodes m.cells r.dumps := by
    refine ⟨by rw [hl]; omega, fun j d hj => ?_⟩
    have hjl := (List.getElem?_eq_some_iff.1 hj).1
    obtain ⟨d', sj, e1, -, e2, e3, e4⟩ := hd j (by omega)
    rw [hj] at e1; cases e1
    exact ⟨e2, by rw [e4]; simp, e3.fields.1.ge, e3.size.ge⟩
  obtain ⟨geo, -, hg, -⟩ := MeshFile.C53_restart_partial hr m.coords cells hx hcells ⟨fun _ _ => 0, fun _ => 0, fun _ => 0⟩
  have hR : HasRoom r.dumps disk := by
    refine ⟨hfree, hfile _ ⟨chars "Testing.case", by decide⟩ (by decide), fun d _ suf _ => hfile _ ?_ ?_⟩
    · refine ⟨chars "data/Testing." ++ (fmt05 d.id ++ '.' :: suf), ?_⟩
      unfold numbered
      rw [← List.append_assoc]
      have : chars "ensight/data/Testing." = chars "ensight/" ++ chars "data/Testing." := by decide +kernel
      rw [this]
    · intro e
      have := congrArg List.length e
      unfold numbered at this
      have l1 : (chars "ensight/data/Testing.").length = 21 := by decide
      have l2 : (chars "ensight/data").length = 12 := by decide
      simp only [List.length_append, l1, l2] at this
      omega
  have N' := names_frames rnd geo m.nodes m.cells ho.nodup
  refine ⟨r, _, e, runOps_spec rnd hg _ ho.mem, fun disk' hcr t c htx hcx => ?_⟩
  obtain ⟨k, -, -, U⟩ := (session_run N' _ 0 disk (by rw [Nat.zero_add]) (hR.room rnd geo m.nodes m.cells) (upto_zero hnew)).2 disk' hcr
  obtain ⟨hk, h5, h6, -, h7, -⟩ := sees_of_upto hr ho U htx hcx
  refine ⟨h5, hl ▸ h6, ?_, fun i hi => ?_⟩
  · obtain ⟨d, sj, e1, -, -, -, e4⟩ := hd (c.steps - 1) (by omega)
    rw [h7 d e1, e4, List.map_map, Nat.sub_add_cancel h5]
    rfl
  · obtain ⟨d, si, e1, e2, -, e3, -⟩ := hd i (by omega)
    refine ⟨si, e2, (upto_data ho U (by omega) e1 (v := 1) (by decide)).trans (congrArg some ?_)⟩
    exact scalarFile_congr rnd m.cells fun c hc => (e3.fields.2 c hc).1

end Verif.Ensight
