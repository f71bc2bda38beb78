import json
M=[]
def m(id,file,old,new,d,edit,claim,target,**k):
    M.append(dict(id=id,file=file,old=old,new=new,edit=edit,claim=claim,target=target,**{"def":d},**k))
R="Verif/RefElem/Model.lean"
T="Verif.RefElem."
I=T+"IndexTheorems"; P=T+"PatchTheorems"; S=T+"SurfaceTheorems"; B=T+"TableTheorems"
m("re01",R,"i + j * w + k * w * w","i + j * w + k * w","rid","k stride missing a factor","C32 bijection",I)
m("re02",R,"(s.1 * zoneRow p + 1) (rid C (2 * i + 1) (2 * j) (2 * k))","(s.1 * zoneRow p + 1) (rid C (2 * i) (2 * j) (2 * k))","zoneLoop","slot 1 repeats slot 0","C32 zones partition the cells",I)
m("re03",R,"(s.1 * zoneRow p + 2) (rid C (2 * i) (2 * j + 1) (2 * k))","(s.1 * zoneRow p + 2) (rid C (2 * i + 1) (2 * j + 1) (2 * k))","zoneLoop","slots 2 and 3 equal","C32 zones",I)
m("re04",R,"    pure (s.1 + 1, a)) (0, a)\n  pure r.2\n\n/-! ### Corners","    pure (s.1 + 2, a)) (0, a)\n  pure r.2\n\n/-! ### Corners","cellNodeLoop","cell counter advanced by two","C32 nodes (out of bounds)",I)
m("re05",R,"(s.1 * 8 + 2) (rid n i (j + 1) k)","(s.1 * 8 + 2) (rid n (i + 1) (j + 1) k)","cellNodeLoop","finite-element ordering of node 2","C32 nodes in i-j-k order",I)
m("re06",R,"let c ← c.set (2 * i - 1) (1 / 2 * w)","let c ← c.set (2 * i - 1) w","cornerWeights1D","half forgotten","C33 split of the weights",I)
m("re07",R,"  let w ← lobw.get (n - 1)\n  c.set (R - 1) w","  some c","cornerWeights1D","last corner weight never written","C33",I)
m("re08",R,"loopM (n - 1 - 1) (fun i' c","loopM (n - 1 - 2) (fun i' c","cornerWeights1D","loop one short","C33",I)
m("re09",R,"let crn := 2 * i + 2 * R * j + 2 * R * R * k + ii + R * jj + R * R * kk","let crn := 2 * i + 2 * R * j + 2 * R * R * k + ii + R * kk + R * R * jj","cornerBody","jj and kk swapped in the corner id","C32 blocks / C33 corner at its node",I)
m("re10",R,"(rid n (i + ii) (j + jj) (k + kk))","(rid n (i + ii) (j + kk) (k + jj))","cornerBody","jj and kk swapped in the node id","C32 nodes",I)
m("re11",R,"pure (⟨corners, nodes, normals, weights, s.1.index + 1⟩, s.2 + 1)","pure (⟨corners, nodes, normals, weights, s.1.index + 1⟩, s.2)","cornerBody","corner_rlid never advanced","C64 normals",S)
m("re12",R,"[-1, 1, -1], [1, 1, -1], [-1, -1, 1]","[1, 1, -1], [-1, 1, -1], [-1, -1, 1]","unitNormals","normals of corners 2 and 3 swapped","C64 outward normals",S)
m("re13",R,"if d = s then unitNormals l s else 0","if d = s then unitNormals l s else unitNormals l d","surfVec","normal not projected on its direction","C64 unit normal of the direction",S)
m("re14",R,"part 0 ^ (1 - |surfVec l s 0|) * part 1 ^ (1 - |surfVec l s 1|)","part 0 ^ (1 - surfVec l s 0) * part 1 ^ (1 - |surfVec l s 1|)","surfWeight","absolute value dropped","C64 weights",S)
m("re15",R,"if 0 < i ∧ i < n - 1 ∧ 0 < j ∧ j < n - 1 ∧ 0 < k ∧ k < n - 1 then do","if 0 < i ∧ i < n - 1 ∧ 0 < j ∧ j < n - 1 ∧ 0 < k ∧ k < n then do","splitLoop","top boundary counted as inside","C62",S)
m("re16",R,"pure { s with inside := a, numIn := s.numIn + 1 }","pure { s with inside := a }","splitLoop","inside counter not advanced","C62",S)
m("re17",R,"[1, 0, 3, 2, 5, 4].getD s 0","[1, 0, 3, 2, 4, 5].getD s 0","neighborSide","bottom/top not opposite","C34 shared patches",P)
m("re18",R,"else if s = 3 ∧ j < C - 1 then some (rid C i (j + 1) k)","else if s = 3 ∧ j < C then some (rid C i (j + 1) k)","neighborCell","boundary guard off by one","C34",P)
m("re19",R,"else if s = 5 ∧ k < C - 1 then some (rid C i j (k + 1))\n","","neighborCell","top neighbour forgotten","C34 shared patches",P)
m("re20",R,"else if s = 3 then do let a ← leg.get i; let b ← lob.get (j + 1);","else if s = 3 then do let a ← leg.get i; let b ← lob.get j;","patchPos","side 3 at the near plane","C63 patch points",P)
m("re21",R,"else if s = 2 ∨ s = 3 then do let a ← legw.get i; let b ← legw.get k;","else if s = 2 ∨ s = 3 then do let a ← legw.get i; let b ← legw.get j;","patchWeight","weights of the wrong directions","C63 patch weights",P)
m("re22",R,"pure { s with list := list, count := s.count + 1, pos := pos, weights := weights }","pure { s with list := list, pos := pos, weights := weights }","sideBody","patch counter not advanced","C34",P)
m("re23",R,"  if v = -1 then do\n    let list ← s.list.set side","  if v ≠ -2 then do\n    let list ← s.list.set side","sideBody","already numbered patches renumbered","C34",P)
m("re24",R,"let cp ← s.cellPos.set (rid C i j k) (row3 x y z)","let cp ← s.cellPos.set (rid C i j k) (row3 z y x)","patchLoop","cell point components reversed","C63 cell points",P)
m("re25",R,"let cw ← s.cellWeights.set (rid C i j k) (a * b * c)","let cw ← s.cellWeights.set (rid C i j k) (a * b)","patchLoop","cell weight misses a factor","C63 cell weights",P)
m("re26",R,"(store2 (store2 (store2 s.1 b 0 (s.2.1 b)) b 1 (s.2.2.1 b)) b 2 (s.2.2.2 b),","(store2 (store2 (store2 s.1 b 0 (s.2.1 b)) b 1 (s.2.2.2 b)) b 2 (s.2.2.1 b),","copyGrad","eta and mu partials swapped","C65 gradients",B)
m("re27",R,"let eta := HexN.partialEta V z","let eta := HexN.partialXi V z","gradLoop","xi partial computed twice","C65 gradients",B)
m("re28",R,"a.set m (loop (V * V * V) (fun b' r => store r b' (b b')) r)) a","a.set m (loop (V * V) (fun b' r => store r b' (b b')) r)) a","basisLoop","only the first layer of vertices copied","C65 values",B)
m("re29",R,"let b := HexN.basis V z pt (q.v m)","let b := HexN.basis V z (fun d => pt (2 - d)) (q.v m)","basisLoop","point components reversed","C65 values",B)
m("re30",R,"let cb ← basisLoop ((n - 1) * (n - 1) * (n - 1)) V z pat.cellPos","let cb ← basisLoop ((n - 1) * (n - 1) * (n - 1)) V z nodes.1","init","cell basis evaluated at the nodes","C65 cell table",B)
m("re31",R,"let pg ← gradLoop P V z pat.pos","let pg ← gradLoop P V z pat.cellPos","init","patch gradients evaluated at cell points","C65 patch table",B)
m("re32",R,"let w ← s.2.set (rid n i j k) (a * b * c)\n    pure (pos, w)","let w ← s.2.set (rid n i j k) (a * b * b)\n    pure (pos, w)","nodeLoop","weight of j used twice","C33",I)
m("re33",R,"else (nodes1D p - 1) / 2","else nodes1D p / 2 - 1","zones1D","one zone per direction too few","C32 zones",I)
m("re34",R,"let list ← clearLoop ((n - 1) * (n - 1) * (n - 1) * 6) ⟨","let list ← clearLoop ((n - 1) * (n - 1) * (n - 1)) ⟨","init","patch list only partly cleared","C34",P)
json.dump(M,open("/tmp/mut3.json","w"))
