import Verif.Swage.PatchLemmas
import Verif.Swage.CellCellLemmas

/-!
# C38 (given the keys), C40, C41: patches, boundary patches, boundary sets

A *side* is a pair (cell, local patch); side `(c, p)` has number `6 c + p`.
-/

namespace Verif.Swage

/-- The sides whose patch id is `g`, in increasing order. -/
def sidesOf (k : Patches) (C g : ℕ) : List ℕ :=
  (List.range (6 * C)).filter fun e => decide (k.inCell (e / 6) (e % 6) = (g : ℤ))

theorem sidesOf_eq {C : ℕ} {nodes : ℕ → ℕ → ℕ} {keys : ℕ → ℕ} {k : Patches} {h : ℕ}
    (w : WalkInv keys nodes (6 * C) (6 * C) (k, h)) {f : ℕ} (hf : f < 6 * C) (hn : IsNew keys f) :
    sidesOf k C (rank keys f) = f :: laterSides keys f (6 * C) := by
  rw [← laterSides_eq hn hf]
  unfold sidesOf
  apply List.filter_congr
  intro e he
  have he := List.mem_range.1 he
  have := w.inCell (e / 6) (e % 6) (Nat.mod_lt _ (by omega)) (by omega)
  simp only [] at this
  rw [this, show 6 * (e / 6) + e % 6 = e by omega, show rank keys f = idOf keys f by
    unfold idOf; rw [first_of_new hn]]
  simp only [Nat.cast_inj, idOf_eq_iff]

/-- **C38 (part 1), for any keys.**  For every number of cells, every cell-node table and all hash keys,
`build_patch_connectivity` performs no out-of-bounds access, and then: two sides have the same patch id
exactly when their keys are equal; the ids are exactly `0, …, num_patches - 1`; sides are numbered
`6 c + p`; and for every patch `g`, with `L` the sides carrying id `g`: slot 0 of `cells_in_patch` /
`sides_in_patch` is the first side in `L` and its cell, slot 1 is `-1` if `L` has one element and otherwise
the last side in `L` and its cell; `node_in_patch` gives the nodes of the first side. -/
theorem C38_patches_partial (C : ℕ) (nodes : ℕ → ℕ → ℕ) (keys : ℕ → ℕ) (jt jc js jn : ℕ → ℤ)
    (ji : ℕ → ℕ → ℤ) (jk : ℕ → ℕ → ℕ) :
    ∃ k, buildPatches C nodes keys jt jc js jn ji jk = some k ∧
      (∀ c < C, ∀ p < 6, ∀ c' < C, ∀ p' < 6,
        k.inCell c p = k.inCell c' p' ↔ keys (6 * c + p) = keys (6 * c' + p')) ∧
      (∀ c < C, ∀ p < 6, 0 ≤ k.inCell c p ∧ k.inCell c p < k.num) ∧
      k.numSides = 6 * C ∧ (∀ c < C, ∀ p < 6, k.sidesInCell c p = 6 * c + p) ∧
      ∀ g < k.num, ∃ a L, sidesOf k C g = a :: L ∧
        k.cellsInPatch g 0 = some ((a / 6 : ℕ) : ℤ) ∧ k.sidesInPatch g 0 = some (a : ℤ) ∧
        (∀ q < 4, k.nodeInPatch g q = some (nodeInPatchInCell nodes (a / 6) (a % 6) q : ℤ)) ∧
        (L = [] → k.cellsInPatch g 1 = some (-1) ∧ k.sidesInPatch g 1 = some (-1)) ∧
        (∀ h : L ≠ [], k.cellsInPatch g 1 = some ((L.getLast h / 6 : ℕ) : ℤ) ∧
          k.sidesInPatch g 1 = some (L.getLast h : ℤ)) := by
  obtain ⟨k, h, h1, w⟩ := buildPatches_spec C nodes keys jt jc js jn ji jk
  refine ⟨k, h1, ?_, ?_, w.ns, ?_, ?_⟩
  · intro c hc p hp c' hc' p' hp'
    rw [w.inCell c p hp (flat_lt2 hc hp), w.inCell c' p' hp' (flat_lt2 hc' hp'), Nat.cast_inj, idOf_eq_iff]
  · intro c hc p hp
    rw [w.inCell c p hp (flat_lt2 hc hp), w.num]
    have := idOf_lt (keys := keys) (flat_lt2 hc hp)
    omega
  · exact fun c hc p hp => w.sic c p hp (flat_lt2 hc hp)
  · intro g hg
    rw [w.num] at hg
    obtain ⟨f, hf, hn, rfl⟩ := idOf_surj hg
    refine ⟨f, laterSides keys f (6 * C), sidesOf_eq w hf hn, ?_, ?_, ?_, ?_, ?_⟩
    · unfold Patches.cellsInPatch
      rw [Arr.get_lt (by rw [w.z1]; omega)]
      have := w.c0 f hf hn
      rw [if_pos hf] at this
      rw [← this]; congr 2; omega
    · unfold Patches.sidesInPatch
      rw [Arr.get_lt (by rw [w.z2]; omega)]
      have := w.s0 f hf hn
      rw [if_pos hf] at this
      rw [← this]; congr 2; omega
    · intro q hq
      unfold Patches.nodeInPatch
      rw [Arr.get_lt (by rw [w.z3]; omega), ← w.n0 f hf hn hf q hq]
      congr 2; omega
    · intro hL
      have a1 := w.c1 f hf hn
      have a2 := w.s1 f hf hn
      rw [hL] at a1 a2
      unfold Patches.cellsInPatch Patches.sidesInPatch
      rw [Arr.get_lt (by rw [w.z1]; omega), Arr.get_lt (by rw [w.z2]; omega)]
      rw [show rank keys f * 2 + 1 = 2 * rank keys f + 1 by omega, a1, a2]
      exact ⟨rfl, rfl⟩
    · intro hL
      have a1 := w.c1 f hf hn
      have a2 := w.s1 f hf hn
      rw [List.getLast?_eq_some_getLast hL] at a1 a2
      unfold Patches.cellsInPatch Patches.sidesInPatch
      rw [Arr.get_lt (by rw [w.z1]; omega), Arr.get_lt (by rw [w.z2]; omega)]
      rw [show rank keys f * 2 + 1 = 2 * rank keys f + 1 by omega, a1, a2]
      exact ⟨rfl, rfl⟩

/-- A concrete instance: two cells sharing the side with key 7 (sides 1 and 6) and ten other sides. -/
example : ∃ k, buildPatches 2 (fun c l => 4 * c + l) (fun e => if e = 6 then 7 else e + 6)
      (fun _ => 5) (fun _ => 5) (fun _ => 5) (fun _ => 5) (fun _ _ => 0) (fun _ _ => 0) = some k ∧
    k.num = 11 ∧ k.cellsInPatch 1 0 = some 0 ∧ k.cellsInPatch 1 1 = some 1 ∧ k.cellsInPatch 0 1 = some (-1) := by
  refine ⟨_, rfl, ?_, ?_, ?_, ?_⟩ <;> decide +kernel

/-! ### C40 -/

/-- Entries of `bdy_patches_` for arbitrary patch tables. -/
def bdySlots (cells : ℕ → ℤ) (m : ℕ) : List ℕ :=
  ((List.range m).filter fun e => decide (cells e = -1)).map (· / 2)

theorem bdySlots_succ (cells : ℕ → ℤ) (m : ℕ) :
    bdySlots cells (m + 1) = bdySlots cells m ++ if cells m = -1 then [m / 2] else [] := by
  unfold bdySlots
  rw [List.range_succ, List.filter_append, List.map_append]
  congr 1
  by_cases h : cells m = -1 <;> simp [h]

theorem bdySlots_mono (cells : ℕ → ℤ) {a b : ℕ} (h : a ≤ b) :
    (bdySlots cells a).length ≤ (bdySlots cells b).length := by
  induction b with
  | zero => have : a = 0 := by omega
            subst this; exact le_rfl
  | succ b ih =>
    rcases Nat.lt_or_ge a (b + 1) with h1 | h1
    · refine (ih (by omega)).trans ?_
      rw [bdySlots_succ, List.length_append]; omega
    · have : a = b + 1 := by omega
      subst this; exact le_rfl

theorem bdyCount_spec (k : Patches) (hz : 2 * k.num ≤ k.cells.size) :
    bdyCount k = some (bdySlots k.cells.val (2 * k.num)).length := by
  unfold bdyCount
  obtain ⟨t, h1, h2⟩ := loopM2_spec (n := k.num) (w := 2) (body := fun p i (t : ℕ) => (do
    let c ← k.cellsInPatch p i
    pure (if c = -1 then t + 1 else t))) (s := 0)
    (fun m t => t = (bdySlots k.cells.val m).length) rfl
    (by
      intro p i t hp hi e
      subst e
      have hm := flat_lt2 hp hi
      unfold Patches.cellsInPatch
      rw [Arr.get_lt (by omega), show p * 2 + i = 2 * p + i by omega]
      refine ⟨_, rfl, ?_⟩
      rw [bdySlots_succ]
      by_cases h : k.cells.val (2 * p + i) = -1 <;> simp [h])
  rw [h1, h2]

theorem buildBdy_spec (k : Patches) (j0 : ℕ → ℕ) (hz : 2 * k.num ≤ k.cells.size) :
    ∃ b, buildBdy k j0 = some b ∧ b.size = (bdySlots k.cells.val (2 * k.num)).length ∧
      ∀ i (h : i < (bdySlots k.cells.val (2 * k.num)).length),
        b.val i = (bdySlots k.cells.val (2 * k.num))[i] := by
  unfold buildBdy
  rw [bdyCount_spec k hz]
  simp only [Option.bind_eq_bind, Option.bind_some]
  obtain ⟨⟨b, t⟩, h1, h2, h3, h4⟩ := loopM2_spec (n := k.num) (w := 2)
    (body := fun p i (s : Arr ℕ × ℕ) => ((k.cellsInPatch p i).bind fun c =>
      if c = -1 then (s.1.set s.2 p).bind fun a => pure (a, s.2 + 1) else pure s))
    (s := (⟨(bdySlots k.cells.val (2 * k.num)).length, j0⟩, 0))
    (fun m s => s.2 = (bdySlots k.cells.val m).length ∧
      s.1.size = (bdySlots k.cells.val (2 * k.num)).length ∧
      ∀ i (h : i < (bdySlots k.cells.val m).length), s.1.val i = (bdySlots k.cells.val m)[i])
    ⟨rfl, rfl, fun i h => absurd h (Nat.not_lt_zero _)⟩
    (by
      rintro p i ⟨⟨z, v⟩, t⟩ hp hi ⟨e1, e2, e3⟩
      simp only [] at e1 e2 e3
      subst e1 e2
      have hm := flat_lt2 hp hi
      have hmono := bdySlots_mono k.cells.val (show 2 * p + i + 1 ≤ 2 * k.num by omega)
      have hs := bdySlots_succ k.cells.val (2 * p + i)
      unfold Patches.cellsInPatch
      rw [Arr.get_lt (by omega), show p * 2 + i = 2 * p + i by omega]
      simp only [Option.bind_some]
      by_cases h : k.cells.val (2 * p + i) = -1
      · rw [if_pos h] at hs ⊢
        have hl : (bdySlots k.cells.val (2 * p + i + 1)).length = (bdySlots k.cells.val (2 * p + i)).length + 1 := by
          rw [hs]; simp
        rw [Arr.set_lt _ (by simp only []; omega)]
        refine ⟨(⟨_, store v _ p⟩, _), rfl, hl.symm, rfl, ?_⟩
        intro j hj
        simp only [hs]
        by_cases hk : j = (bdySlots k.cells.val (2 * p + i)).length
        · subst hk
          rw [store_same, List.getElem_append_right (le_refl _)]
          simp; omega
        · rw [store_ne _ _ hk, List.getElem_append_left (by omega)]
          exact e3 j _
      · rw [if_neg h] at hs ⊢
        rw [List.append_nil] at hs
        refine ⟨_, rfl, ?_, ?_, ?_⟩
        · simp only [hs]
        · rfl
        · simp only [hs]; exact e3)
  refine ⟨b, ?_, h3, h4⟩
  refine (congrArg (Option.bind · _) h1).trans ?_
  rfl

theorem bdySlots_filter (cells : ℕ → ℤ) (n : ℕ) (h : ∀ g < n, cells (2 * g) ≠ -1) :
    bdySlots cells (2 * n) = (List.range n).filter fun g => decide (cells (2 * g + 1) = -1) := by
  induction n with
  | zero => rfl
  | succ n ih =>
    rw [show 2 * (n + 1) = 2 * n + 1 + 1 by ring, bdySlots_succ, bdySlots_succ, ih (fun g hg => h g (by omega)),
      if_neg (h n (by omega)), List.append_nil, List.range_succ, List.filter_append]
    congr 1
    by_cases h2 : cells (2 * n + 1) = -1
    · rw [if_pos h2, List.filter_cons, if_pos (by simpa using h2), List.filter_nil]
      congr 1; omega
    · rw [if_neg h2, List.filter_cons, if_neg (by simpa using h2), List.filter_nil]

/-- **C40.**  After `build_patch_connectivity`, `build_bdy_patches` performs no out-of-bounds access and
`bdy_patches(0), …, bdy_patches(num_bdy_patches - 1)` is the increasing list of the patches that belong to
exactly one side, equivalently whose second neighbour is `-1`. -/
theorem C40_bdy (C : ℕ) (nodes : ℕ → ℕ → ℕ) (keys : ℕ → ℕ) (jt jc js jn : ℕ → ℤ)
    (ji : ℕ → ℕ → ℤ) (jk : ℕ → ℕ → ℕ) (j0 : ℕ → ℕ) :
    ∃ k b, buildPatches C nodes keys jt jc js jn ji jk = some k ∧ buildBdy k j0 = some b ∧
      b.size = ((List.range k.num).filter fun g => decide ((sidesOf k C g).length = 1)).length ∧
      (∀ i (h : i < ((List.range k.num).filter fun g => decide ((sidesOf k C g).length = 1)).length),
        b.get i = some ((List.range k.num).filter fun g => decide ((sidesOf k C g).length = 1))[i]) ∧
      ∀ g < k.num, ((sidesOf k C g).length = 1 ↔ k.cellsInPatch g 1 = some (-1)) := by
  obtain ⟨k, h1, _, _, _, _, h2⟩ := C38_patches_partial C nodes keys jt jc js jn ji jk
  obtain ⟨k', h, h1', w⟩ := buildPatches_spec C nodes keys jt jc js jn ji jk
  obtain rfl : k' = k := by rw [h1] at h1'; exact (Option.some.inj h1').symm
  have hz : 2 * k'.num ≤ k'.cells.size := by rw [w.num, w.z1]
  obtain ⟨b, b1, b2, b3⟩ := buildBdy_spec k' j0 hz
  have key : ∀ g < k'.num, ((sidesOf k' C g).length = 1 ↔ k'.cellsInPatch g 1 = some (-1)) := by
    intro g hg
    obtain ⟨a, L, hs, _, _, _, e1, e2⟩ := h2 g hg
    rw [hs]
    by_cases hL : L = []
    · simp [hL, (e1 hL).1]
    · rw [(e2 hL).1]
      constructor
      · intro h; simp at h; exact absurd h hL
      · intro h; have := Option.some.inj h; omega
  have heq : bdySlots k'.cells.val (2 * k'.num) =
      (List.range k'.num).filter fun g => decide ((sidesOf k' C g).length = 1) := by
    rw [bdySlots_filter]
    · apply List.filter_congr
      intro g hg
      have hg := List.mem_range.1 hg
      rw [decide_eq_decide, key g hg]
      unfold Patches.cellsInPatch
      rw [Arr.get_lt (by omega), show g * 2 + 1 = 2 * g + 1 by omega, Option.some_inj]
    · intro g hg hc
      obtain ⟨a, L, hs, e0, _⟩ := h2 g hg
      unfold Patches.cellsInPatch at e0
      rw [Arr.get_lt (by omega), show g * 2 + 0 = 2 * g by omega, hc, Option.some_inj] at e0
      omega
  rw [heq] at b2 b3
  exact ⟨k', b, h1, b1, b2, fun i hi => by rw [Arr.get_lt (by omega), b3 i hi], key⟩

example : ∃ k b, buildPatches 2 (fun c l => 4 * c + l) (fun e => if e = 6 then 7 else e + 6)
      (fun _ => 5) (fun _ => 5) (fun _ => 5) (fun _ => 5) (fun _ _ => 0) (fun _ _ => 0) = some k ∧
    buildBdy k (fun _ => 9) = some b ∧ b.size = 10 ∧ b.get 0 = some 0 ∧ b.get 1 = some 2 := by
  refine ⟨_, _, rfl, rfl, ?_, ?_, ?_⟩ <;> decide +kernel

/-! ### C41 -/

/-- The list held by an array. -/
def Arr.IsList {α : Type} (a : Arr α) (L : List α) : Prop :=
  a.size = L.length ∧ ∀ i (h : i < L.length), a.val i = L[i]

/-- What tagging set `s` with criterion `on` should store. -/
def tagged (bdy : List ℕ) (on : ℕ → Bool) : List ℕ := bdy.filter on

/-- Sets `0 … k-1` are stored correctly, one after the other from the start of the list. -/
structure Stored (bdy : List ℕ) (on : ℕ → ℕ → Bool) (n k : ℕ) (s : BdySets) : Prop where
  sets : s.numSets = n
  zn : s.num.size = n
  zs : s.start.size = n + 1
  zl : s.list.size = n * bdy.length
  start : ∀ b ≤ k, 0 < k → s.start.val b = ∑ r ∈ Finset.range b, (tagged bdy (on r)).length
  num : ∀ b < k, s.num.val b = (tagged bdy (on b)).length
  list : ∀ b < k, ∀ i (h : i < (tagged bdy (on b)).length),
    s.list.val (s.start.val b + i) = (tagged bdy (on b))[i]

theorem tagLoop_spec (bdy : Arr ℕ) (L : List ℕ) (hb : Arr.IsList bdy L) (on : ℕ → Bool) (st : ℕ) (l0 : Arr ℕ)
    (hl : st + (tagged L on).length ≤ l0.size) :
    ∃ l', loopM bdy.size (fun i (t : Arr ℕ × ℕ) => (bdy.get i).bind fun p =>
      if on p = true then (t.1.set (st + t.2) p).bind fun l => pure (l, t.2 + 1) else pure t) (l0, 0)
        = some (l', (tagged L on).length) ∧ l'.size = l0.size ∧
      (∀ i < st, l'.val i = l0.val i) ∧
      ∀ i (h : i < (tagged L on).length), l'.val (st + i) = (tagged L on)[i] := by
  rw [hb.1]
  obtain ⟨⟨l', t⟩, h1, h2, h3, h4, h5⟩ := loopM_list L (fun i (t : Arr ℕ × ℕ) => (bdy.get i).bind fun p =>
      if on p = true then (t.1.set (st + t.2) p).bind fun l => pure (l, t.2 + 1) else pure t) (l0, 0)
    (fun M s => M.length ≤ L.length ∧ (∃ post, L = M ++ post) ∧ s.2 = (tagged M on).length ∧ s.1.size = l0.size ∧
      (∀ i < st, s.1.val i = l0.val i) ∧
      ∀ i (h : i < (tagged M on).length), s.1.val (st + i) = (tagged M on)[i]) []
    ⟨by simp, ⟨L, rfl⟩, rfl, rfl, fun _ _ => rfl, fun i h => absurd h (Nat.not_lt_zero _)⟩
    (by
      rintro i ⟨⟨z, v⟩, t⟩ hi ⟨_, _, e1, e2, e3, e4⟩
      simp only [List.nil_append] at e1 e2 e3 e4 ⊢
      subst e1 e2
      rw [Arr.get_lt (by rw [hb.1]; exact hi), hb.2 i hi]
      simp only [Option.bind_some]
      have hsplit : L = (L.take i ++ [L[i]]) ++ L.drop (i + 1) := by
        rw [← List.take_succ_eq_append_getElem hi, List.take_append_drop]
      have hlen : (L.take i ++ [L[i]]).length ≤ L.length := by simp; try omega
      have hle : (tagged (L.take i ++ [L[i]]) on).length ≤ (tagged L on).length := by
        conv_rhs => rw [hsplit]
        unfold tagged
        rw [List.filter_append (L.take i ++ [L[i]]), List.length_append]; omega
      have ht : tagged (L.take i ++ [L[i]]) on = tagged (L.take i) on ++ if on L[i] then [L[i]] else [] := by
        unfold tagged
        rw [List.filter_append]; congr 1
        by_cases h : on L[i] = true <;> simp [h]
      by_cases h : on L[i] = true
      · rw [if_pos h] at ht ⊢
        rw [ht, List.length_append, List.length_singleton] at hle
        rw [Arr.set_lt _ (by simp only []; omega)]
        refine ⟨(⟨_, store v _ _⟩, _), rfl, hlen, ⟨_, hsplit⟩, by rw [ht]; simp, rfl, ?_, ?_⟩
        · intro j hj
          simp only []
          rw [store_ne _ _ (by omega)]; exact e3 j hj
        · intro j hj
          simp only [ht]
          by_cases hk : j = (tagged (L.take i) on).length
          · subst hk
            rw [store_same, List.getElem_append_right (le_refl _)]
            simp
          · rw [ht, List.length_append, List.length_singleton] at hj
            rw [store_ne _ _ (by omega), List.getElem_append_left (by omega)]
            exact e4 j (by omega)
      · rw [if_neg h] at ht ⊢
        rw [List.append_nil] at ht
        exact ⟨_, rfl, hlen, ⟨_, hsplit⟩, by rw [ht], rfl, e3, by simp only [ht]; exact e4⟩)
  simp only [List.nil_append] at h2 h3 h4 h5
  refine ⟨l', ?_, h5.1, h5.2.1, h5.2.2⟩
  rw [h1, h4]

theorem sum_tagged_le (L : List ℕ) (on : ℕ → ℕ → Bool) (k : ℕ) :
    ∑ r ∈ Finset.range k, (tagged L (on r)).length ≤ k * L.length := by
  have : ∑ r ∈ Finset.range k, (tagged L (on r)).length ≤ ∑ _r ∈ Finset.range k, L.length :=
    Finset.sum_le_sum fun r _ => List.length_filter_le _ _
  simpa using this

/-- One more call. -/
theorem tag_step (bdy : Arr ℕ) (L : List ℕ) (hb : Arr.IsList bdy L) (on : ℕ → ℕ → Bool) (n k : ℕ) (hk : k < n)
    (s : BdySets) (hs : Stored L on n k s) :
    ∃ s', tagBdys bdy (on k) k s = some (some s') ∧ Stored L on n (k + 1) s' := by
  obtain ⟨ns, ⟨z1, num⟩, ⟨z2, start⟩, ⟨z3, list⟩⟩ := s
  obtain ⟨a1, a2, a3, a4, a5, a6, a7⟩ := hs
  simp only [] at a1 a2 a3 a4 a5 a6 a7
  subst a1 a2 a3 a4
  unfold tagBdys
  rw [if_neg (by simp only []; omega)]
  simp only [Option.bind_eq_bind]
  rw [Arr.set_lt _ (by simp only []; omega)]
  simp only [Option.bind_some]
  rw [Arr.get_lt (by simp only []; omega)]
  simp only [Option.bind_some]
  have hst : ∀ b ≤ k, store start 0 0 b = ∑ r ∈ Finset.range b, (tagged L (on r)).length := by
    intro b hb
    by_cases h0 : b = 0
    · subst h0; simp
    · rw [store_ne _ _ h0]; exact a5 b hb (by omega)
  have hsum := sum_tagged_le L on (k + 1)
  rw [Finset.sum_range_succ] at hsum
  have hmul : (k + 1) * L.length ≤ z1 * L.length := Nat.mul_le_mul_right _ (by omega)
  rw [hst k le_rfl]
  obtain ⟨l', l1, l2, l3, l4⟩ := tagLoop_spec bdy L hb (on k) (∑ r ∈ Finset.range k, (tagged L (on r)).length)
    ⟨z1 * L.length, list⟩ (by simp only []; omega)
  rw [l1]
  simp only [Option.bind_some]
  rw [Arr.set_lt _ (by simp only []; omega)]
  simp only [Option.bind_some]
  rw [Arr.set_lt _ (by simp only []; omega)]
  refine ⟨⟨z1, ⟨z1, store num k _⟩, ⟨z1 + 1, store (store start 0 0) (k + 1) _⟩, l'⟩, rfl, rfl, rfl, rfl, l2, ?_, ?_, ?_⟩
  · intro b hb _
    simp only []
    by_cases h : b = k + 1
    · subst h; rw [store_same, Finset.sum_range_succ]
    · rw [store_ne _ _ h]; exact hst b (by omega)
  · intro b hb
    simp only []
    by_cases h : b = k
    · subst h; rw [store_same]
    · rw [store_ne _ _ h]; exact a6 b (by omega)
  · intro b hb i hi
    simp only []
    rw [store_ne _ _ (by omega), hst b (by omega)]
    by_cases h : b = k
    · subst h; exact l4 i hi
    · have hlt : ∑ r ∈ Finset.range b, (tagged L (on r)).length + i <
          ∑ r ∈ Finset.range k, (tagged L (on r)).length := by
        have h1 : ∑ r ∈ Finset.range (b + 1), (tagged L (on r)).length ≤
            ∑ r ∈ Finset.range k, (tagged L (on r)).length :=
          Finset.sum_le_sum_of_subset (Finset.range_subset_range.2 (by omega))
        rw [Finset.sum_range_succ] at h1; omega
      rw [l3 _ hlt, ← a7 b (by omega) i hi, a5 b (by omega) (by omega)]

theorem tagSeq_spec (bdy : Arr ℕ) (L : List ℕ) (hb : Arr.IsList bdy L) (on : ℕ → ℕ → Bool) (n : ℕ) (s : BdySets)
    (hs : Stored L on n 0 s) (k : ℕ) (hk : k ≤ n) :
    ∃ s', tagSeq bdy ((List.range k).map fun b => (b, on b)) s = some (some s') ∧ Stored L on n k s' := by
  induction k with
  | zero => exact ⟨s, rfl, hs⟩
  | succ k ih =>
    obtain ⟨s', h1, h2⟩ := ih (by omega)
    obtain ⟨s'', h3, h4⟩ := tag_step bdy L hb on n k (by omega) s' h2
    refine ⟨s'', ?_, h4⟩
    unfold tagSeq at h1 ⊢
    rw [List.range_succ, List.map_append, List.foldl_append, h1]
    simpa using h3

/-- **C41.**  Let `L` be the boundary patches, `n` the number of sets asked for (0 counts as 1), and let
`tag_bdys` be called for sets `0, 1, …, k-1` in this order with arbitrary criteria, `k` not more than the
number of sets.  Then no access is out of bounds and for every tagged set `b` the stored count and
`bdy_patches_in_set(b, ·)` are exactly the boundary patches meeting criterion `b`, in order. -/
theorem C41_tags (bdy : Arr ℕ) (L : List ℕ) (hL : bdy.size = L.length)
    (hv : ∀ i (h : i < L.length), bdy.get i = some L[i]) (on : ℕ → ℕ → Bool) (n k : ℕ)
    (hk : k ≤ max n 1) (j1 j2 j3 : ℕ → ℕ) :
    ∃ s, tagSeq bdy ((List.range k).map fun b => (b, on b)) (initBdySets n L.length j1 j2 j3) = some (some s) ∧
      ∀ b < k, s.num.get b = some (L.filter (on b)).length ∧
        ∀ i (h : i < (L.filter (on b)).length), s.inSet b i = some (L.filter (on b))[i] := by
  have hb : Arr.IsList bdy L := ⟨hL, fun i h => (Arr.get_eq_some (hv i h)).2⟩
  have hk' : k ≤ if n = 0 then 1 else n := by split <;> omega
  obtain ⟨s, h1, h2⟩ := tagSeq_spec bdy L hb on (if n = 0 then 1 else n) (initBdySets n L.length j1 j2 j3)
    ⟨rfl, rfl, rfl, rfl, fun _ _ h => absurd h (by omega), fun b h => absurd h (by omega), fun b h => absurd h (by omega)⟩ k hk'
  refine ⟨s, h1, fun b hb' => ⟨?_, fun i hi => ?_⟩⟩
  · rw [Arr.get_lt (by rw [h2.zn]; omega), h2.num b hb']; rfl
  · unfold BdySets.inSet
    rw [Arr.get_lt (by rw [h2.zs]; omega)]
    simp only [Option.bind_eq_bind, Option.bind_some]
    have hi' : i < (tagged L (on b)).length := hi
    have hlt : s.start.val b + i < s.list.size := by
      rw [h2.start b (by omega) (by omega), h2.zl]
      have h3 := sum_tagged_le L on (b + 1)
      rw [Finset.sum_range_succ] at h3
      have h4 : (b + 1) * L.length ≤ (if n = 0 then 1 else n) * L.length := Nat.mul_le_mul_right _ (by omega)
      omega
    rw [Arr.get_lt hlt, h2.list b hb' i hi]; rfl

example : ∃ s, tagSeq ⟨4, fun i => 10 + i⟩ ((List.range 2).map fun b => (b, fun p => decide (p % 2 = b)))
    (initBdySets 2 4 (fun _ => 0) (fun _ => 0) (fun _ => 0)) = some (some s) ∧
    s.inSet 1 0 = some 11 ∧ s.inSet 1 1 = some 13 ∧ s.inSet 0 1 = some 12 := by
  refine ⟨_, rfl, ?_, ?_, ?_⟩ <;> decide +kernel

/-- **C41, rejection of bad set numbers (partial).**  The guard is `==`: exactly the first set index past the
end makes the program exit. -/
theorem C41_reject_partial (bdy : Arr ℕ) (on : ℕ → Bool) (s : BdySets) : tagBdys bdy on s.numSets s = some none := by
  unfold tagBdys; rw [if_pos rfl]

/-- **C41, negation.**  Every larger set index is not rejected but is undefined behaviour (a read past the
end of the start-index array). -/
theorem C41_reject_negation (bdy : Arr ℕ) (on : ℕ → Bool) (n B b : ℕ) (j1 j2 j3 : ℕ → ℕ) (hb : max n 1 < b) :
    tagBdys bdy on b (initBdySets n B j1 j2 j3) = none := by
  unfold tagBdys initBdySets
  have : (if n = 0 then 1 else n) < b := by split <;> omega
  rw [if_neg (by simp only []; omega)]
  simp only [Option.bind_eq_bind]
  rw [Arr.set_lt _ (by simp only []; omega)]
  simp only [Option.bind_some]
  rw [Arr.get_ge (by simp only []; omega)]
  rfl

/-- **C41, order matters.**  Tagging sets 0, 1 and then set 0 again (with a criterion that holds for more
patches) changes what set 1 returns: the increasing order in the property cannot be dropped. -/
theorem C41_retag :
    ∃ s, tagSeq ⟨2, fun i => 10 + i⟩ [(0, fun p => p == 10), (1, fun p => p == 11), (0, fun _ => true)]
      (initBdySets 2 2 (fun _ => 0) (fun _ => 0) (fun _ => 0)) = some (some s) ∧
      s.num.get 1 = some 1 ∧ s.inSet 1 0 ≠ some 11 := by
  refine ⟨_, rfl, ?_, ?_⟩ <;> decide +kernel

end Verif.Swage
