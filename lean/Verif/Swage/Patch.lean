import Verif.Swage.NodeCell

/-!
# Model of the patch and boundary builders of `swage/swage.cpp`

The hash keys (whose computation from the coordinates is modelled in `Verif.Swage.PatchKey`) are an
argument `keys`, one natural number per (cell, local patch), in the order of the loops.
Lists that hold `-1` have integer entries.
-/

namespace Verif.Swage

/-- `node_rlid_in_patch_in_cell_`, swage/swage.h:90-99. -/
def patchNodeTable : List ℕ :=
  [0,2,6,4, 1,3,7,5, 0,4,5,1, 2,6,7,3, 0,1,3,2, 4,5,7,6]

/-- `mesh_t::node_in_patch_in_cell(c, p, q)`, swage/swage.cpp:855-862. -/
def nodeInPatchInCell (nodes : ℕ → ℕ → ℕ) (c p q : ℕ) : ℕ :=
  nodes c (patchNodeTable.getD (q + p * 4) 0)

/-- `max_key`, swage/swage.cpp:1463, 1511 (`std::max` over the keys, starting at 0). -/
def maxKey (K : ℕ) (keys : ℕ → ℕ) : ℕ := loop K (fun e m => max m (keys e)) 0

/-- Initialisation of the used table entries, swage/swage.cpp:1521-1523. -/
def initTable (K : ℕ) (keys : Arr ℕ) (table : Arr ℤ) : Option (Arr ℤ) :=
  loopM K (fun e t => do
    let k ← keys.get e
    t.set k (-1)) table

/-- First walk, swage/swage.cpp:1527-1541: state (table, `patch_gid`, `hash_count`). -/
def numberLoop (C : ℕ) (keys : Arr ℕ) (table : Arr ℤ) : Option (Arr ℤ × ℕ × ℕ) :=
  loopM C (fun _ s => loopM 6 (fun _ (s : Arr ℤ × ℕ × ℕ) => do
    let k ← keys.get s.2.2
    let v ← s.1.get k
    if v = -1 then do
      let t ← s.1.set k (s.2.1 : ℤ)
      pure (t, s.2.1 + 1, s.2.2 + 1)
    else pure (s.1, s.2.1, s.2.2 + 1)) s) (table, 0, 0)

/-- The patch members of `mesh_t`. -/
structure Patches where
  /-- `num_patches_` -/
  num : ℕ
  /-- `cells_in_patch_list_` -/
  cells : Arr ℤ
  /-- `sides_in_patch_list_` -/
  sides : Arr ℤ
  /-- `patch_nodes_list_` -/
  nodes : Arr ℤ
  /-- `patch_in_cell_list_` -/
  inCell : ℕ → ℕ → ℤ
  /-- `sides_in_cell_list_` -/
  sidesInCell : ℕ → ℕ → ℕ
  /-- `num_sides_` (and the running `side_gid`) -/
  numSides : ℕ

/-- Filling with -1, swage/swage.cpp:1563-1570. -/
def fillNeg (n : ℕ) (a : Arr ℤ) : Option (Arr ℤ) := loopM n (fun i a => a.set i (-1)) a

/-- One (cell, patch) of the second walk, swage/swage.cpp:1581-1635. The table entry `g` is the patch id;
indices computed from it are converted with `Int.toNat` (they are non-negative when the table entry is an
id). State: the members and `hash_count`. -/
def patchBody (nodes : ℕ → ℕ → ℕ) (keys : Arr ℕ) (table : Arr ℤ) (c p : ℕ) (s : Patches × ℕ) :
    Option (Patches × ℕ) := do
  let k ← keys.get s.2
  let g ← table.get k
  let inCell := store2 s.1.inCell c p g
  let sic := store2 s.1.sidesInCell c p s.1.numSides
  let first ← s.1.cells.get (g * 2).toNat
  if first = -1 then do
    let cells ← s.1.cells.set (g * 2).toNat c
    let sides ← s.1.sides.set (g * 2).toNat s.1.numSides
    let pn ← loopM 4 (fun q a => a.set ((g * 4).toNat + q) (nodeInPatchInCell nodes c p q : ℤ)) s.1.nodes
    pure (⟨s.1.num, cells, sides, pn, inCell, sic, s.1.numSides + 1⟩, s.2 + 1)
  else do
    let cells ← s.1.cells.set ((g * 2).toNat + 1) c
    let sides ← s.1.sides.set ((g * 2).toNat + 1) s.1.numSides
    pure (⟨s.1.num, cells, sides, s.1.nodes, inCell, sic, s.1.numSides + 1⟩, s.2 + 1)

/-- `mesh_t::build_patch_connectivity` from the allocation of the hash table on,
swage/swage.cpp:1517-1640. The `j*` are contents of fresh arrays. -/
def buildPatches (C : ℕ) (nodes : ℕ → ℕ → ℕ) (keys : ℕ → ℕ) (jt jc js jn : ℕ → ℤ)
    (ji : ℕ → ℕ → ℤ) (jk : ℕ → ℕ → ℕ) : Option Patches := do
  let K : Arr ℕ := ⟨C * 6, keys⟩
  let t ← initTable (C * 6) K ⟨maxKey (C * 6) keys + 10, jt⟩
  let n ← numberLoop C K t
  let cells ← fillNeg (2 * n.2.1) ⟨n.2.1 * 2, jc⟩
  let sides ← fillNeg (2 * n.2.1) ⟨n.2.1 * 2, js⟩
  let pn ← fillNeg (4 * n.2.1) ⟨n.2.1 * 4, jn⟩
  let r ← loopM C (fun c s => loopM 6 (fun p s => patchBody nodes K n.1 c p s) s)
    (⟨n.2.1, cells, sides, pn, ji, jk, 0⟩, 0)
  pure r.1

/-- `mesh_t::cells_in_patch(p, i)`, swage/swage.cpp:866-873. -/
def Patches.cellsInPatch (k : Patches) (p i : ℕ) : Option ℤ := k.cells.get (p * 2 + i)
/-- `mesh_t::sides_in_patch(p, i)`, swage/swage.cpp:886-893. -/
def Patches.sidesInPatch (k : Patches) (p i : ℕ) : Option ℤ := k.sides.get (p * 2 + i)
/-- `mesh_t::node_in_patch(p, q)`, swage/swage.cpp:876-883. -/
def Patches.nodeInPatch (k : Patches) (p q : ℕ) : Option ℤ := k.nodes.get (p * 4 + q)

/-! ### Boundary patches -/

/-- First walk of `mesh_t::build_bdy_patches`, swage/swage.cpp:1873-1888. -/
def bdyCount (k : Patches) : Option ℕ :=
  loopM k.num (fun p t => loopM 2 (fun i t => do
    let c ← k.cellsInPatch p i
    pure (if c = -1 then t + 1 else t)) t) 0

/-- `mesh_t::build_bdy_patches`, swage/swage.cpp:1867-1917; the result is `bdy_patches_`
(its size is `num_bdy_patches_`). -/
def buildBdy (k : Patches) (j0 : ℕ → ℕ) : Option (Arr ℕ) := do
  let n ← bdyCount k
  let r ← loopM k.num (fun p s => loopM 2 (fun i (s : Arr ℕ × ℕ) => do
    let c ← k.cellsInPatch p i
    if c = -1 then do
      let a ← s.1.set s.2 p
      pure (a, s.2 + 1)
    else pure s) s) (⟨n, j0⟩, 0)
  pure r.1

/-! ### Boundary sets -/

/-- The boundary-set members of `mesh_t`. -/
structure BdySets where
  /-- `num_bdy_sets_` -/
  numSets : ℕ
  /-- `num_bdy_patches_set_` -/
  num : Arr ℕ
  /-- `start_index_bdy_set_` -/
  start : Arr ℕ
  /-- `bdy_set_list_` -/
  list : Arr ℕ

/-- `mesh_t::init_bdy_sets`, swage/swage.cpp:553-567, with `B` = `num_bdy_patches_`. -/
def initBdySets (n B : ℕ) (j1 j2 j3 : ℕ → ℕ) : BdySets :=
  let n := if n = 0 then 1 else n
  ⟨n, ⟨n, j1⟩, ⟨n + 1, j2⟩, ⟨n * B, j3⟩⟩

/-- `mesh_t::tag_bdys` for a set `b` and a criterion `on` (`check_bdy`, see `Verif.Swage.PatchKey`),
swage/swage.cpp:1936-1974. `some none` = the program exits; `none` = undefined behaviour. -/
def tagBdys (bdy : Arr ℕ) (on : ℕ → Bool) (b : ℕ) (s : BdySets) : Option (Option BdySets) :=
  if b = s.numSets then some none
  else do
    let start ← s.start.set 0 0
    let st ← start.get b
    let r ← loopM bdy.size (fun i (t : Arr ℕ × ℕ) => do
      let p ← bdy.get i
      if on p then do
        let l ← t.1.set (st + t.2) p
        pure (l, t.2 + 1)
      else pure t) (s.list, 0)
    let num ← s.num.set b r.2
    let v ← start.get b
    let start ← start.set (b + 1) (v + r.2)
    pure (some ⟨s.numSets, num, start, r.1⟩)

/-- A sequence of calls `tag_bdys(on 0, set 0), …, tag_bdys(on (k-1), set k-1)`. -/
def tagSeq (bdy : Arr ℕ) (calls : List (ℕ × (ℕ → Bool))) (s : BdySets) : Option (Option BdySets) :=
  calls.foldl (fun r call => r.bind fun o => match o with
    | none => some none
    | some s => tagBdys bdy call.2 call.1 s) (some (some s))

/-- `mesh_t::bdy_patches_in_set(b, i)`, swage/swage.cpp:919-923 (the same as `set_bdy_patches`, 1924-1929). -/
def BdySets.inSet (s : BdySets) (b i : ℕ) : Option ℕ := do
  let st ← s.start.get b
  s.list.get (st + i)

end Verif.Swage
