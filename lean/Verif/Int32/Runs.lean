import Verif.Int32.Lemmas

/-! Exact conditions under which the checked functions complete. -/

namespace Verif.Int32
open Verif.Swage Verif.Swage.Refine

theorem maxKey_lt {K B : ℕ} {k : ℕ → ℕ} (hB : 0 < B) : maxKey K k < B ↔ ∀ i < K, k i < B := by
  constructor
  · intro h i hi; exact lt_of_le_of_lt (le_maxKey K k i hi) h
  · intro h
    unfold maxKey
    induction K with
    | zero => exact hB
    | succ K ih => rw [loop_succ]; exact max_lt (ih fun i hi => h i (by omega)) (h K (by omega))

/-- A completed checked run is the unchecked run. -/
theorem refine_same {E N p : ℕ} {nodes : ℕ → ℕ → ℕ} {x : ℕ → ℕ → ℝ} {q : Junk} {jk : ℕ → ℕ} {r : Refined}
    (e : refineMesh32 E N p nodes x q jk = some r) :
    refineMesh E N p nodes x q = some r ∧ pts1d p ^ 3 * E < 2 ^ 31 ∧
      (∀ d < 3, bins N x (binSize E p nodes x q) d < 2 ^ 31) ∧
      ∀ g < E * pts1d p ^ 3, key N x (binSize E p nodes x q) (r.gauss.val g) + 10 < 2 ^ 31 := by
  unfold refineMesh32 at e
  obtain ⟨G, hG, e⟩ := Option.bind_eq_some_iff.1 e
  obtain ⟨K, hK, e⟩ := Option.bind_eq_some_iff.1 e
  obtain ⟨lob, hl, e⟩ := Option.bind_eq_some_iff.1 e
  obtain ⟨⟨gc, g⟩, hg, e⟩ := Option.bind_eq_some_iff.1 e
  by_cases hne : hashDist p (distMin E nodes x q.dist q.dist0) = 0
  · simp only [hne, if_true] at e
    cases e
  simp only [if_neg hne] at e
  obtain ⟨u, hu, e⟩ := Option.bind_eq_some_iff.1 e
  obtain ⟨ks, hks, e⟩ := Option.bind_eq_some_iff.1 e
  obtain ⟨sz, hsz, e⟩ := Option.bind_eq_some_iff.1 e
  obtain ⟨t, ht, e⟩ := Option.bind_eq_some_iff.1 e
  obtain ⟨w, hw, e⟩ := Option.bind_eq_some_iff.1 e
  obtain ⟨co, hco, e⟩ := Option.bind_eq_some_iff.1 e
  obtain ⟨ce, hce, e⟩ := Option.bind_eq_some_iff.1 e
  obtain ⟨nl, hnl, e⟩ := Option.bind_eq_some_iff.1 e
  have e' := Option.some.inj e
  subst e'
  obtain ⟨hG, -⟩ := int32_some hG
  subst hG
  obtain ⟨hK, hKlt⟩ := int32_some hK
  subst hK
  have hgs : g.size = pts1d p ^ 3 * E := by
    obtain ⟨r', h1, h2, -⟩ := gaussPoints_spec E (pts1d p) nodes x lob.val q.gauss
    rw [hg] at h1
    have := Option.some.inj h1
    subst this
    rw [h2]; exact Nat.mul_comm _ _
  obtain ⟨k1, k2, k3, k4⟩ := keys32_some hgs hks
  obtain ⟨s1, s2⟩ := int32_some hsz
  subst s1
  refine ⟨?_, hKlt, ?_, ?_⟩
  · unfold refineMesh
    show (Quad.lobatto_nodes_1D (pts1d p) ⟨pts1d p, q.lob⟩).bind _ = _
    rw [hl, Option.bind_some]
    show (gaussPoints E (pts1d p) nodes x lob.val ⟨E * pts1d p ^ 3, q.gauss⟩).bind _ = _
    rw [hg, Option.bind_some]
    simp only [if_neg hne]
    rw [zeroTable_congr k2, k1] at ht
    rw [walk_congr k2] at hw
    show (zeroTable _ _ _).bind _ = _
    refine (congrArg (fun z => Option.bind z _) ht).trans ?_
    rw [Option.bind_some]
    refine (congrArg (fun z => Option.bind z _) hw).trans ?_
    rw [Option.bind_some]
    refine (congrArg (fun z => Option.bind z _) hco).trans ?_
    rw [Option.bind_some]
    refine (congrArg (fun z => Option.bind z _) hce).trans ?_
    rw [Option.bind_some]
    refine (congrArg (fun z => Option.bind z _) hnl).trans ?_
    rw [Option.bind_some]
    rfl
  · exact k3
  · intro g' hg'
    have := le_maxKey (pts1d p ^ 3 * E) (fun i => keyZ (posMin N x) (posMax N x)
      (hashDist p (distMin E nodes x q.dist q.dist0)) (g.val i)) g' (by rw [Nat.mul_comm]; exact hg')
    rw [k1] at s2
    exact lt_of_le_of_lt (Nat.add_le_add_right this 10) s2

/-- If nothing overflows, the checked run completes. -/
theorem refine_complete {E N p : ℕ} {nodes : ℕ → ℕ → ℕ} {x : ℕ → ℕ → ℝ} {q : Junk} (jk : ℕ → ℕ) {r : Refined}
    (e : refineMesh E N p nodes x q = some r) (hE : 0 < E) (hK : pts1d p ^ 3 * E < 2 ^ 31)
    (hb : ∀ d < 3, bins N x (binSize E p nodes x q) d < 2 ^ 31) (hy : ∀ d < 2, 0 < bins N x (binSize E p nodes x q) d)
    (hk : ∀ g < E * pts1d p ^ 3, key N x (binSize E p nodes x q) (r.gauss.val g) + 10 < 2 ^ 31) :
    refineMesh32 E N p nodes x q jk = some r := by
  unfold refineMesh at e
  obtain ⟨lob, hl, e⟩ := Option.bind_eq_some_iff.1 e
  obtain ⟨⟨gc, g⟩, hg, e⟩ := Option.bind_eq_some_iff.1 e
  by_cases hne : hashDist p (distMin E nodes x q.dist q.dist0) = 0
  · simp only [hne, if_true] at e
    cases e
  simp only [if_neg hne] at e
  obtain ⟨u, hu, e⟩ := Option.bind_eq_some_iff.1 e
  obtain ⟨t, ht, e⟩ := Option.bind_eq_some_iff.1 e
  obtain ⟨w, hw, e⟩ := Option.bind_eq_some_iff.1 e
  obtain ⟨co, hco, e⟩ := Option.bind_eq_some_iff.1 e
  obtain ⟨ce, hce, e⟩ := Option.bind_eq_some_iff.1 e
  obtain ⟨nl, hnl, e⟩ := Option.bind_eq_some_iff.1 e
  have e' := Option.some.inj e
  subst e'
  have hgs : g.size = pts1d p ^ 3 * E := by
    obtain ⟨r', h1, h2, -⟩ := gaussPoints_spec E (pts1d p) nodes x lob.val q.gauss
    rw [hg] at h1
    have := Option.some.inj h1
    subst this
    rw [h2]; exact Nat.mul_comm _ _
  have hG : pts1d p ^ 3 < 2 ^ 31 := lt_of_le_of_lt (Nat.le_mul_of_pos_right _ hE) hK
  have hk' : ∀ i < pts1d p ^ 3 * E, keyZ (posMin N x) (posMax N x) (binSize E p nodes x q) (g.val i) + 10 < 2 ^ 31 :=
    fun i hi => hk i (by rw [Nat.mul_comm]; exact hi)
  have b0 : 0 < binsZ (posMin N x) (posMax N x) (binSize E p nodes x q) 0 := hy 0 (by omega)
  have b1 : 0 < binsZ (posMin N x) (posMax N x) (binSize E p nodes x q) 1 := hy 1 (by omega)
  have hidx : ∀ i < pts1d p ^ 3 * E, ∀ d < 3, indexZ (posMin N x) (binSize E p nodes x q) (g.val i) d < 2 ^ 31 := by
    intro i hi d hd
    have h := hk' i hi
    unfold keyZ at h
    have m1 := Nat.le_mul_of_pos_right (indexZ (posMin N x) (binSize E p nodes x q) (g.val i) 1) b0
    have m2 := (Nat.le_mul_of_pos_right (indexZ (posMin N x) (binSize E p nodes x q) (g.val i) 2) b0).trans
      (Nat.le_mul_of_pos_right _ b1)
    interval_cases d <;> omega
  obtain ⟨ks, hks⟩ := keys32_run (mn := posMin N x) (mx := posMax N x) (h := binSize E p nodes x q) (g := g) jk hgs hb b1
    (fun i hi d hd => hidx i hi d (by omega)) (fun i hi => hidx i hi 2 (by omega)) (fun i hi => by have := hk' i hi; omega)
  obtain ⟨k1, k2, k3, k4⟩ := keys32_some hgs hks
  have hsz : ks.2 + 10 < 2 ^ 31 := by
    rw [k1]
    have := (maxKey_lt (K := pts1d p ^ 3 * E) (B := 2 ^ 31 - 10)
      (k := fun i => keyZ (posMin N x) (posMax N x) (binSize E p nodes x q) (g.val i)) (by norm_num)).2
      (fun i hi => by have := hk' i hi; omega)
    omega
  unfold refineMesh32
  show (int32 (pts1d p ^ 3)).bind _ = _
  rw [int32_lt hG, Option.bind_some]
  show (int32 (pts1d p ^ 3 * E)).bind _ = _
  rw [int32_lt hK, Option.bind_some]
  refine (congrArg (fun z => Option.bind z _) hl).trans ?_
  rw [Option.bind_some]
  refine (congrArg (fun z => Option.bind z _) hg).trans ?_
  rw [Option.bind_some]
  simp only [if_neg hne]
  refine (congrArg (fun z => Option.bind z _) hks).trans ?_
  rw [Option.bind_some]
  refine (congrArg (fun z => Option.bind z _) (int32_lt hsz)).trans ?_
  rw [Option.bind_some]
  have ht' : zeroTable (pts1d p ^ 3 * E) ks.1 ⟨ks.2 + 10, q.table⟩ = some t := by
    rw [zeroTable_congr k2, k1]; exact ht
  refine (congrArg (fun z => Option.bind z _) ht').trans ?_
  rw [Option.bind_some]
  refine (congrArg (fun z => Option.bind z _) ((walk_congr k2 _).trans hw)).trans ?_
  rw [Option.bind_some]
  refine (congrArg (fun z => Option.bind z _) hco).trans ?_
  rw [Option.bind_some]
  refine (congrArg (fun z => Option.bind z _) hce).trans ?_
  rw [Option.bind_some]
  refine (congrArg (fun z => Option.bind z _) hnl).trans ?_
  rw [Option.bind_some]
  rfl

theorem numberLoop_congr {C : ℕ} {a b : Arr ℕ} (h : a.get = b.get) (t : Arr ℤ) : numberLoop C a t = numberLoop C b t := by
  unfold numberLoop; rw [h]

theorem initTable_congr {K : ℕ} {a b : Arr ℕ} (h : a.get = b.get) (t : Arr ℤ) : initTable K a t = initTable K b t := by
  unfold initTable; rw [h]

theorem patchBody_congr {a b : Arr ℕ} (h : a.get = b.get) (nodes : ℕ → ℕ → ℕ) (t : Arr ℤ) (c p : ℕ) (s : Patches × ℕ) :
    patchBody nodes a t c p s = patchBody nodes b t c p s := by
  unfold patchBody; rw [h]

/-- The checked patch construction: completes iff no conversion and no sum overflows, and then gives the unchecked result. -/
theorem patches_iff {C N : ℕ} {nodes : ℕ → ℕ → ℕ} {x : ℕ → ℕ → ℝ} {junk : ℕ → ℝ} {junk0 : ℝ} {jkey : ℕ → ℕ}
    {jt jc js jn : ℕ → ℤ} {ji : ℕ → ℕ → ℤ} {jk : ℕ → ℕ → ℕ} {k : Patches}
    (h0 : ∀ c < C, ∀ p < 6, 0 ≤ Key.hash1 N nodes x (Key.delta C nodes x junk junk0) c p) :
    buildPatches32 C N nodes x junk junk0 jkey jt jc js jn ji jk = some k ↔
      buildPatches C nodes (Key.key C N nodes x junk junk0) jt jc js jn ji jk = some k ∧ C * 6 < 2 ^ 31 ∧
        Key.delta C nodes x junk junk0 ≠ 0 ∧ ∀ e < C * 6, Key.key C N nodes x junk junk0 e + 10 < 2 ^ 31 := by
  constructor
  · intro e
    unfold buildPatches32 at e
    obtain ⟨K, hK, e⟩ := Option.bind_eq_some_iff.1 e
    by_cases hne : Key.delta C nodes x junk junk0 = 0
    · simp only [hne, if_true] at e
      cases e
    simp only [if_neg hne] at e
    obtain ⟨u, hu, e⟩ := Option.bind_eq_some_iff.1 e
    obtain ⟨ks, hks, e⟩ := Option.bind_eq_some_iff.1 e
    obtain ⟨sz, hsz, e⟩ := Option.bind_eq_some_iff.1 e
    obtain ⟨t, ht, e⟩ := Option.bind_eq_some_iff.1 e
    obtain ⟨n, hn, eF⟩ := Option.bind_eq_some_iff.1 e
    obtain ⟨hK, hKlt⟩ := int32_some hK
    subst hK
    obtain ⟨s1, s2⟩ := int32_some hsz
    subst s1
    obtain ⟨kf, f1, f2, f3⟩ := fillKeys_some hks
    have hkf : ∀ i < C * 6, kf i = Key.key C N nodes x junk junk0 i := fun i hi => (toInt_some (f1 i hi)).1
    rw [get_congr hkf] at f3
    rw [maxKey_congr hkf] at f2
    refine ⟨?_, hKlt, hne, ?_⟩
    · unfold buildPatches
      rw [initTable_congr f3, f2] at ht
      rw [numberLoop_congr f3] at hn
      simp only [patchBody_congr f3] at eF
      refine (congrArg (fun z => Option.bind z _) ht).trans ?_
      rw [Option.bind_some]
      refine (congrArg (fun z => Option.bind z _) hn).trans ?_
      rw [Option.bind_some]
      exact eF
    · intro i hi
      have := le_maxKey _ (Key.key C N nodes x junk junk0) i hi
      rw [f2] at s2
      omega
  · rintro ⟨e, hK, hδ, hk⟩
    obtain ⟨a, ha, hget⟩ := fillKeys_run (K := C * 6)
      (f := fun e => toInt (Key.hash1 N nodes x (Key.delta C nodes x junk junk0) (e / 6) (e % 6))) jkey
      (k := Key.key C N nodes x junk junk0) (fun i hi => by
        have := hk i hi
        exact toInt_floor (h0 _ (by omega) _ (Nat.mod_lt _ (by norm_num))) (show Key.key C N nodes x junk junk0 i < _ by omega))
    have hsz : maxKey (C * 6) (Key.key C N nodes x junk junk0) + 10 < 2 ^ 31 := by
      have := (maxKey_lt (K := C * 6) (B := 2 ^ 31 - 10) (k := Key.key C N nodes x junk junk0) (by norm_num)).2
        (fun i hi => by have := hk i hi; omega)
      omega
    unfold buildPatches at e
    obtain ⟨t, ht, e⟩ := Option.bind_eq_some_iff.1 e
    obtain ⟨n, hn, e⟩ := Option.bind_eq_some_iff.1 e
    unfold buildPatches32
    show (int32 (C * 6)).bind _ = _
    rw [int32_lt hK, Option.bind_some]
    simp only [if_neg hδ]
    refine (congrArg (fun z => Option.bind z _) ha).trans ?_
    rw [Option.bind_some]
    refine (congrArg (fun z => Option.bind z _) (int32_lt hsz)).trans ?_
    rw [Option.bind_some]
    refine (congrArg (fun z => Option.bind z _) ((initTable_congr hget _).trans ht)).trans ?_
    rw [Option.bind_some]
    refine (congrArg (fun z => Option.bind z _) ((numberLoop_congr hget _).trans hn)).trans ?_
    rw [Option.bind_some]
    simp only [patchBody_congr hget]
    exact e

end Verif.Int32
