import json
M=[]
def m(id,file,old,new,d,edit,claim,target,**k):
    M.append(dict(id=id,file=file,old=old,new=new,edit=edit,claim=claim,target=target,**{"def":d},**k))
R="Verif/Swage/Refine.lean"
N="Verif.Swage.RefineNegation"
m("rf01",R,"let t ← if v ≤ 0 then s.table.set k (v - 1) else some s.table","let t ← if v < 0 then s.table.set k (v - 1) else some s.table","walkStep","fresh entries are not decremented","C42 ids consecutive",N)
m("rf02",R,"    let t ← t.set k (s.gid : ℤ)\n    let nig","    let nig","walkStep","id not stored in the table","C42 same key same id",N)
m("rf03",R,"pure ⟨t, m.1, m.2, s.gid + 1, nig⟩","pure ⟨t, m.1, m.2, s.gid, nig⟩","walkStep","node id not advanced","C42 distinct ids for distinct keys",N)
m("rf04",R,"    let nig ← s.nig.set g v1\n","    let nig ← s.nig.set g (s.gid : ℤ)\n","walkStep","merged point gets the next id","C42 same key same id",N)
m("rf05",R,"i + (j + 1) * n + k * n * n, i + 1 + (j + 1) * n + k * n * n,\n   i + j * n + (k + 1)","i + 1 + (j + 1) * n + k * n * n, i + (j + 1) * n + k * n * n,\n   i + j * n + (k + 1)","corner","corners 2 and 3 swapped (finite-element order)","C43 i-j-k order of gauss_in_cell",N)
m("rf06",R,"let gid := lid + S * S * S * e","let gid := lid + n * n * n * e","cellLoop","cell id strided by Gauss points","C43 consecutive cell ids / bounds",N)
m("rf07",R,"let elem ← s.elem.set gid e","let elem ← s.elem.set gid lid","cellLoop","elems_in_cell stores the local id","C43",N)
m("rf08",R,"let v ← nig.get (corner n e k j i l)\n","let v ← nig.get (corner n e i j k l)\n","nodeLoop","i and k swapped in the second loop","C43 nodes_in_cell are the nodes of gauss_in_cell",N)
m("rf09",R,"    * (1 + tempPts L i j k 2 * refVert v 2)","    * (1 - tempPts L i j k 2 * refVert v 2)","basis","wrong sign in the third factor","C44 corner points are the vertices",N)
m("rf10",R,"[-1, 1, -1], [1, 1, -1], [-1, -1, 1]","[1, 1, -1], [-1, 1, -1], [-1, -1, 1]","refVert","vertices 2 and 3 in the other order","C44 corner points are the vertices",N)
m("rf11",R,"if d = 0 then L i else if d = 1 then L j else L k","if d = 0 then L k else if d = 1 then L j else L i","tempPts","i and k swapped","C44 affine elements",N)
m("rf12",R,"def pts1d (p : ℕ) : ℕ := if p = 0 then 2 else 2 * p + 1","def pts1d (p : ℕ) : ℕ := if p = 0 then 2 else 2 * p","pts1d","one point too few","C45 (2p+1)^3 nodes",N)
m("rf13",R,"zones := if p = 0 then 1 else (cells1d / 2) ^ dim","zones := cells1d ^ dim","initElement","zones not halved","C45 p^3 zones",N)
m("rf14",R,"patches := (cells1d + 1) * (cells1d * cells1d) * 3","patches := (cells1d + 1) * (cells1d * cells1d) * 2","initElement","two instead of three directions","C45 patches",N)
m("rf15",R,"index N x h y 0 + index N x h y 1 * bins N x h 0 + index","index N x h y 0 + index N x h y 1 * bins N x h 1 + index","key","wrong stride","C42 same id iff same bin (h <= 1)",N)
m("rf16",R,"⌊max (1 / 10 ^ 16) ((posMax N x d - posMin N x d + 1 + 1 / 10 ^ 14) / h)⌋₊","⌊max (1 / 10 ^ 16) ((posMax N x d - posMin N x d + 1 / 10 ^ 14) / h)⌋₊","bins","forget the extra unit in the number of bins","C42 same id iff same bin (h <= 1)",N)
m("rf17",R,"dm / (7 * if p = 0 then 1 else (p : ℝ))","dm / (if p = 0 then 1 else (p : ℝ))","hashDist","bins seven times too wide","C42 lattice meshes",N)
m("rf18",R,"let q ← ntg.get m\n    let r ← g.get q","let r ← g.get m","writeCoords","coordinates of Gauss point m instead of the first Gauss point of node m","C42 node_coords",N)
m("rf19",R,"let t ← zeroTable K ⟨K, keys⟩ ⟨maxKey K keys + 10, q.table⟩","let t ← zeroTable K ⟨K, keys⟩ ⟨maxKey K keys, q.table⟩","refineMesh","table one too short","C43 no out-of-bounds access",N)
m("rf20",R,"⟨t, ⟨K, q.ntg⟩, 0, 0, ⟨E * c.gPts, q.nig⟩⟩","⟨⟨maxKey K keys + 10, q.table⟩, ⟨K, q.ntg⟩, 0, 0, ⟨E * c.gPts, q.nig⟩⟩","refineMesh","hash table not cleared","C42",N)
m("rf21",R,"fun v s => s + b v * xs v","fun v _ => b v * xs v","gPoint","no accumulation","C44",N)
m("rf22",R,"loop N (fun n m => min m (x n d)) (10 ^ 16)","loop N (fun n m => min m (x n d)) 0","posMin","minimum started from 0","C42 bins for meshes with positive coordinates",N)
Q="Verif/Quad/Tables.lean"
T="Verif.Quad.Theorems"
m("qd01",Q,"dec (-830223896278566929872032213967) 30","dec (-830223896278566929872032213967) 29","lobNodesQ","misplaced decimal point","C30",T,nth=0)
m("qd02",Q,"dec (468848793470714213803771881909) 30","dec (468848793470714213803711881909) 30","lobNodesQ","one digit wrong (1e-17)","C30 error bound",T,nth=0)
m("qd03",Q,"  | 3 => [1/3,\n      4/3,\n      1/3]","  | 3 => [1/3,\n      1/3,\n      4/3]","lobWeightsQ","weights permuted","C30",T)
json.dump(M,open("/tmp/mut2.json","w"))
