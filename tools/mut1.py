import json
M=[]
def m(id,file,old,new,d,edit,claim,target,**k):
    M.append(dict(id=id,file=file,old=old,new=new,edit=edit,claim=claim,target=target,**{"def":d},**k))
S="Verif/Swage/"
t=lambda x:"Verif.Swage."+x
m("sw01",S+"NodeCell.lean","let list ← s.1.set (i + k) c\n","let list ← s.1.set (i + k) l\n","placeLoop","store the local node instead of the cell","C35 lists the cells of the node",t("NodeCellTheorems"))
m("sw02",S+"NodeCell.lean","start.set (n + 1) (a + b)) start","start.set (n + 1) (a + b + 1)) start","startLoop","start index too large by one","C35 no out-of-bounds write / lists",t("NodeCellTheorems"))
m("sw03",S+"NodeCell.lean","    let saved ← s.2.set (key c l) (k + 1)\n    pure (list, saved)","    let saved ← s.2.set (key c l) k\n    pure (list, saved)","placeLoop","saved count never advanced","C35 every incidence listed",t("NodeCellTheorems"))
m("sw04",S+"NodeCell.lean","pure ((list, saved), store2 s.2.1 c l s.2.2, s.2.2 + 1)","pure ((list, saved), store2 s.2.1 l c s.2.2, s.2.2 + 1)","buildCorners","swapped indices of corners_in_cell","C36 corners_in_cell bijection",t("NodeCellTheorems"))
m("sw05",S+"NodeCell.lean","    let list ← s.1.1.set (i + k) s.2.2\n","    let list ← s.1.1.set (i + k) c\n","buildCorners","store the cell id instead of the corner id","C36 corners_in_node lists corners",t("NodeCellTheorems"))
m("sw06",S+"CellCell.lean","(if nb = c then false else true)","true","saveBody","forget to exclude the cell itself","C37 lists only other cells",t("CellCellTheorems"))
m("sw07",S+"CellCell.lean","pure (if nb = v then false else save)","pure save","saveBody","no duplicate check","C37 each neighbour once",t("CellCellTheorems"))
m("sw08",S+"CellCell.lean","pure (if nb = v then false else save)) (if","pure (if nb = v then false else true)) (if","saveBody","flag reset by every non-matching entry","C37 each neighbour once",t("CellCellTheorems"))
m("sw09",S+"CellCell.lean","let start ← s.1.start.set c s.2\n","let start ← s.1.start.set c st\n","compactLoop","start index not updated in the compaction","C37 cells_in_cell",t("CellCellTheorems"))
m("sw10",S+"CellCell.lean","let num ← s.1.num.set c k\n    let st","let num ← s.1.num.set c (k + 1)\n    let st","compactLoop","count too large by one","C37 count of neighbours",t("CellCellTheorems"))
m("sw11",S+"Elem.lean","pure (num, store2 s.2 e g n)","pure (num, store2 s.2 e g g)","elemCount","store the local index instead of the node","C39 nodes_in_elem",t("ElemTheorems"))
m("sw12",S+"Elem.lean","    a.set i (x - y)) a","    a.set i (y - x)) a","strides","difference reversed","C39 elems_in_elem readable",t("ElemTheorems"))
m("sw13",S+"Elem.lean","def gaussInElem (G e g : ℕ) : ℕ := e * G + g","def gaussInElem (G e g : ℕ) : ℕ := e + G * g","gaussInElem","transposed index","C39 nodes_in_elem(e,g) is the node at Gauss point e*G+g",t("ElemTheorems"))
m("sw14",S+"Patch.lean","pure (⟨s.1.num, cells, sides, s.1.nodes, inCell, sic, s.1.numSides + 1⟩, s.2 + 1)","pure (⟨s.1.num, cells, s.1.sides, s.1.nodes, inCell, sic, s.1.numSides + 1⟩, s.2 + 1)","patchBody","second side id not stored","C38 sides_in_patch",t("PatchTheorems"))
m("sw15",S+"Patch.lean","let cells ← s.1.cells.set ((g * 2).toNat + 1) c","let cells ← s.1.cells.set (g * 2).toNat c","patchBody","second cell overwrites the first slot","C38 cells_in_patch",t("PatchTheorems"))
m("sw16",S+"Patch.lean","    if v = -1 then do\n      let t ← s.1.set k (s.2.1 : ℤ)","    if v ≠ -1 then do\n      let t ← s.1.set k (s.2.1 : ℤ)","numberLoop","inverted test of the hash table entry","C38 same id iff same key",t("PatchTheorems"))
m("sw17",S+"Patch.lean","⟨maxKey (C * 6) keys + 10, jt⟩","⟨maxKey (C * 6) keys, jt⟩","buildPatches","hash table one too short","C38 no out-of-bounds access",t("PatchTheorems"))
m("sw18",S+"Patch.lean","pure (if c = -1 then t + 1 else t)) t) 0","pure (if c = -1 then t + 1 else 0)) t) 0","bdyCount","counter reset on interior slots","C40",t("PatchTheorems"))
m("sw19",S+"Patch.lean","let start ← start.set (b + 1) (v + r.2)","let start ← start.set (b + 1) r.2","tagBdys","start of the next set without the previous start","C41",t("PatchTheorems"))
m("sw20",S+"Patch.lean","if b = s.numSets then some none","if b + 1 = s.numSets then some none","tagBdys","guard one too early","C41 the last set can be tagged",t("PatchTheorems"))
m("sw21",S+"Patch.lean","⟨n, ⟨n, j1⟩, ⟨n + 1, j2⟩, ⟨n * B, j3⟩⟩","⟨n, ⟨n, j1⟩, ⟨n, j2⟩, ⟨n * B, j3⟩⟩","initBdySets","start array allocated with n entries","C41 no out-of-bounds access",t("PatchTheorems"))
m("sw22",S+"PatchKey.lean","if s.2.1 + 1 > 7 then","if s.2.1 + 1 > 6 then","advance","wrong bound in the tricky indexing","C38 all 28 vertex pairs enter the minimal distance",t("PatchKeyTheorems"))
m("sw23",S+"PatchKey.lean","hashIdx N nodes x δ c p 0 + hashIdx N nodes x δ c p 1 * numBins N x δ 0\n    + hashIdx N nodes x δ c p 2 * numBins N x δ 0 * numBins N x δ 1","hashIdx N nodes x δ c p 0 + hashIdx N nodes x δ c p 1 * numBins N x δ 0\n    + hashIdx N nodes x δ c p 2 * numBins N x δ 1","hash1","missing factor of the z stride","C38 keys faithful on lattice meshes",t("PatchKeyTheorems"))
m("sw24",S+"Patch.lean","[0,2,6,4, 1,3,7,5,","[0,2,6,4, 1,3,7,4,","patchNodeTable","wrong vertex in patch 1","C38 same id iff same nodes on lattice meshes",t("PatchKeyTheorems"))
m("sw25",S+"PatchKey.lean","loop N (fun n m => min m (x n d)) (10 ^ 64)","loop N (fun n m => min m (x n d)) 0","coordMin","minimum initialised with 0 (mesh with positive coordinates only)","none: still a lower bound, keys stay faithful",t("PatchKeyTheorems"))
m("sw26",S+"PatchKey.lean","/ δ\n\n/-- `patch_coords` of a side","/ δ - 1\n\n/-- `patch_coords` of a side","numBins","one bin too few","C38 keys faithful on lattice meshes",t("PatchKeyTheorems"))
C="Verif/Common/Model.lean"; ct="Verif.Common.Theorems"
m("co01",C,"some ys => some ((x % b) :: ys)","some ys => some ((x / b) :: ys)","base10ToMixedRadix","quotient stored instead of remainder","C01 digits",ct)
m("co02",C,"mixedRadixLoop rest (y + x * z) (z * b)","mixedRadixLoop rest (y + x * z) (z * x)","mixedRadixLoop","place value multiplied by the digit","C01/C02 round trip",ct)
m("co03",C,"let s := d + 3 * (n - 1)","let s := d + 3 * n","encodeTerm","shift without -1","C03/C04 encoding",ct)
m("co04",C,"decodeLoop e 1 0 0 0","decodeLoop e 0 0 0 0","decodePartialDerivative","place counter starts at 0","C03/C04 decode",ct)
m("co05",C,"(ny + ind (e &&& 2 > 0) p)","(ny + ind (e &&& 4 > 0) p)","decodeLoop","wrong bit mask","C03/C04 decode",ct)
L="Verif/Lagrange/Model.lean"; lt="Verif.Lagrange.Theorems"
m("la01",L,"if j ≠ k then wj * (1 / (z j - z k)) else wj","if j ≠ k then wj * (1 / (z k - z j)) else wj","computeBarycentricWeights","sign of the difference","C05 weights",lt)
m("la02",L,"if ic < Nv then (if i = ic then 1 else 0)","if ic < Nv then (if i = ic then 0 else 1)","eval","inverted delta","C06",lt)
m("la03",L,"(s.1 + w j * c j / (X - Z j), s.2 * (X - Z j))) ((0 : K), (1 : K))\n    s.1 * s.2","(s.1 + w j * c j / (X - Z j), s.2 * (X - Z j))) ((0 : K), (1 : K))\n    s.1 / s.2","evalInterp","division by the node polynomial","C07",lt)
m("la04",L,"let dnp := t.2 * (-M / w i)","let dnp := t.2 * (M / w i)","derStepCoincident","lost sign","C08",lt)
m("la05",L,"if j ≠ i then 0 else 1)) c","if j ≠ i then 1 else 0)) c","evalDer","inverted unit vector","C08 derivative of a basis function",lt)
m("la06",L,"k + (UInt64.ofNat j + 1) *","k + (UInt64.ofNat j) *","findCoincidentVertex","index not shifted","C05/C06 coincident vertex",lt)
E_="Verif/LagrangeElement/Model.lean"; et="Verif.LagrangeElement.Theorems"
m("le01",E_,"some (dli * lj * lk, li * dlj * lk, li * lj * dlk)","some (dli * lj * lk, li * dlj * lk, li * dlj * dlk)","evalGradBasis","derivative factor used twice","C10",et)
m("le02",E_,"evalInterp N ix Z w (X 0) (fun m => c (j * N + k * N * N + m))","evalInterp N ix Z w (X 0) (fun m => c (k * N + j * N * N + m))","evalApprox","swapped strides","C10",et)
m("le03",E_,"let s := evalGradApprox tol N Z s.1 y X 3 s.2","let s := evalGradApprox tol N Z s.1 y X 2 s.2","evalJac","row offset 2 instead of 3","C11",et)
m("le04",E_,"store Jinv 1 (-d * (J 1 * J 8 - J 2 * J 7))","store Jinv 1 (-d * (J 3 * J 8 - J 5 * J 6))","evalInvJac","missing transpose of the cofactor","C11",et)
m("le05",E_,"store r.2 (2 * N + k) r.1) s.1","store r.2 (N + k) r.1) s.1","evalGradApprox","second level of the work array overwrites the first","C10 gradient",et)
G="Verif/Legendre/Model.lean"; gt="Verif.Legendre.Theorems"
m("lg01",G,"(n - 1) * evalShift X m)","n * evalShift X m)","evalShift","coefficient n instead of n-1","C12",gt)
m("lg02",G,"(1 / 2) ^ k * Real.Gamma (θ + k)","(1 / 2) ^ k * Real.Gamma (θ + 1)","jacobiEvalDer","Gamma argument without k","C13",gt)
m("lg03",G,"if n = 0 ∨ k > n then 0","if n = 0 ∨ k ≥ n then 0","jacobiEvalDer","boundary k = n","C13 derivative of order n",gt)
m("lg04",G,"jacobiEval (n - k) (α + k) (β + k) X","jacobiEval (n - k) (α + k) (β + k + 1) X","jacobiEvalDer","wrong second index","C14",gt)
P="Verif/Points/Model.lean"; pt="Verif.Points.Theorems"
m("po01",P,"(i : K) / ((N - 1 : ℕ) : K)","(i : K) / (N : K)","equispacedPoints","divide by N","C16 last point is Zr",pt)
m("po02",P,"(-1 * (N : ℤ) + 1) + 2 * (i : ℤ)","(-1 * (N : ℤ)) + 2 * (i : ℤ)","chebyshevPoints","missing +1","C57",pt)
m("po03",P,"let a := store a 0 (-1)\n  store a order 1","let a := store a 0 (-1)\n  store a (order - 1) 1","chebyshevNodes1D","last node at the wrong index","C58",pt)
U="Verif/LU/Model.lean"; ut="Verif.LU.Theorems"
m("lu01",U,"let parity := if imax ≠ j then -s.parity else s.parity","let parity := s.parity","column","parity not flipped","C17/C19 determinant sign",ut)
m("lu02",U,"loop i (fun k sum => sum - a i k * a k j) (a i j))) a","loop (i + 1) (fun k sum => sum - a i k * a k j) (a i j))) a","upper","one term too many","C17 PA = LU",ut)
m("lu03",U,"let vv := if imax ≠ j then store s.vv imax (s.vv j) else s.vv","let vv := s.vv","column","scale array not permuted","C59 (equal scales): not observable; general pivoting",ut)
m("lu04",U,"let b := store b ip (b i)\n","","forward","permutation of b dropped","C18",ut)
m("lu05",U,"store b i (sum / a i i)) b","store b i sum) b","backward","no division by the pivot","C18",ut)
m("lu06",U,"if j + 1 < n then\n","if j + 2 < n then\n","scaleCol","last multiplier not scaled","C17",ut)
m("lu07",U,"if vv i * |sum| ≥ s.2.1","if vv i * |sum| ≤ s.2.1","lower","smallest instead of largest pivot","C59 multipliers bounded",ut)
J="Verif/Jacobian/Model.lean"; jt="Verif.Jacobian.Theorems"
m("ja01",J,"store2 J j k (J j k + vertices v k * part v j)","store2 J j k (J j k + vertices v j * part v k)","fill","transposed Jacobian","C21 entries",jt)
m("ja02",J,"store2 Minv 0 1 ((M 0 2 * M 2 1 - M 0 1 * M 2 2) * d)","store2 Minv 0 1 ((M 0 1 * M 2 2 - M 0 2 * M 2 1) * d)","matInverse","sign of a cofactor","C20",jt)
m("ja03",J,"+ J 0 3 * J 1 1 * J 2 0 * J 3 2","- J 0 3 * J 1 1 * J 2 0 * J 3 2","jacobian4d","sign","C21 4D determinant",jt)
m("ja04",J,"store2 Ji 2 (8 + a - 8) (invMat (8 + a))","store2 Ji 2 (8 + a - 8) (invMat (4 + a))","jacobianInverse4d","row 2 copied from row 1","C22 4D inverse",jt)
H="Verif/HexN/Model.lean"; ht="Verif.HexN.Theorems"
m("hx01",H,"let den := if j ≠ i then s.2.1 * (z i - z j) else s.2.1\n  (num, den, num / den)","let den := if j ≠ i then s.2.1 * (z j - z i) else s.2.1\n  (num, den, num / den)","basisStep","sign","C28",ht)
m("hx02",H,"if N ≠ j ∧ N ≠ i then p * (x - z N) else p","if N ≠ j then p * (x - z N) else p","productGradient","own vertex not skipped","C28 derivative",ht)
m("hx03",H,"def rid (n i j k : ℕ) : ℕ := i + j * n + k * n * n","def rid (n i j k : ℕ) : ℕ := k + j * n + i * n * n","rid","reversed lexicographic order","C29/C60 ordering",ht)
m("hx04",H,"tensor n (fun i j k => ds.2 i 0 * s.2 j 1 * s.2 k 2) b","tensor n (fun i j k => ds.2 i 0 * s.2 j 1 * s.2 k 1) b","partialXi","column 1 used for the third factor","C29",ht)
m("hx05",H,"let i := (m + 1) - n * (j - 1)","let i := (m + 1) - n * j","quadBody","row offset","C29 QuadN",ht)
m("hx06",H,"def numNodes1d (order : ℕ) : ℕ := if order = 0 then 2 else 2 * order + 1","def numNodes1d (order : ℕ) : ℕ := if order = 0 then 2 else 2 * order","numNodes1d","2p instead of 2p+1","C60",ht)
Q="Verif/Shape/Model.lean"; qt="Verif.Shape.Theorems"
m("sh01",Q,"(1/4) * (1 + x 0*rv v 0) * (1 + x 1*rv v 1)) b\n  b\n","(1/4) * (1 - x 0*rv v 0) * (1 + x 1*rv v 1)) b\n  b\n","Quad4.basis","sign","C23",qt,nth=0)
m("sh02",Q,"(1/4) * (rv v 0) * (1 + x 1*rv v 1)) b","(1/4) * (rv v 1) * (1 + x 1*rv v 1)) b","Quad4.partialXi","wrong column","C24",qt,nth=0)
m("sh03",Q,"[0, 2, 6, 8].getD v 0","[0, 2, 8, 6].getD v 0","Quad4.vertToNode","swapped entries","C25 characterisation of wrong entries",qt)
m("sh04",Q,"(0, 0, 0), (0, 1, 1), (1, 0, 3)","(0, 0, 0), (0, 1, 2), (1, 0, 3)","Quad4.surfaceToDof","wrong vertex","C26",qt)
json.dump(M,open("/tmp/mut1.json","w"))
print(len(M))
