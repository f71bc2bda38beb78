import json
M=[]
def e(id,f,old,new,d,edit,claim,target,**k):
    M.append(dict(id=id,file="Verif/%s.lean"%f,old=old,new=new,edit=edit,claim=claim,target=target,**{"def":d},**k))
R="RefElem/Model"; T="Verif.RefElem.TableTheorems"; S="Verif.RefElem.SurfaceTheorems"; P="Verif.RefElem.PatchTheorems"; I="Verif.RefElem.IndexTheorems"
e("re-24_01",R,"if p = 0 then 2 else 2 * p + 1","if p = 0 then 2 else p + 1","nodes1D","p+1 nodes","number of nodes",T)
e("re-24_02",R,"def verts1D (p : ℕ) : ℕ := if p = 0 then 2 else p + 1","def verts1D (p : ℕ) : ℕ := if p = 0 then 2 else p","verts1D","one vertex missing","basis tables",T)
e("re-24_03",R,"def zoneRow (p : ℕ) : ℕ := if p = 0 then 1 else 8","def zoneRow (p : ℕ) : ℕ := if p = 0 then 1 else 7","zoneRow","seven cells per zone","zone table",I)
e("re-24_04",R,"def cells1D (p : ℕ) : ℕ := nodes1D p - 1","def cells1D (p : ℕ) : ℕ := nodes1D p","cells1D","off by one","cells",I)
e("re-24_05",R,"2 * (nodes1D p - 2) + 2","2 * (nodes1D p - 2) + 1","corners1D","one corner short","corners",I)
e("re-24_06",R,"fun j => loopM w fun i => body k j i) s","fun j => loopM w fun i => body j k i) s","loop3","k and j swapped","numbering of cells",I)
e("re-24_07",R,"if d = 0 then a else if d = 1 then b else c","if d = 0 then b else if d = 1 then a else c","row3","x and y swapped","node positions",T)
e("re-24_08",R,"let part ← s.1.set (rid R i j k) (row3 a b c)\n    let w ← s.2.set (rid R i j k) (a * b * c)","let part ← s.1.set (rid R i j k) (row3 a b c)\n    let w ← s.2.set (rid R i j k) (a * b * b)","cornerWeightLoop","c replaced by b","corner weights",S)
e("re-24_09",R,"let part ← s.1.set (rid R i j k) (row3 a b c)\n","let part ← s.1.set (rid R i j k) (row3 b a c)\n","cornerWeightLoop","partition weights swapped","surface weights",S)
e("re-24_10",R,"let r ← loop3 2 (fun kk jj ii => cornerBody n R part k j i kk jj ii) (s, 0)","let r ← loop3 2 (fun kk jj ii => cornerBody n R part k j i kk ii jj) (s, 0)","cornerLoop","ii and jj swapped","corners of a cell",S)
e("re-24_11",R,"list.set (neighborSide sd + nb * 6) (count : ℤ) else some list","list.set (sd + nb * 6) (count : ℤ) else some list","writeNeighbor","same side of the neighbour","patches shared",P)
e("re-24_12",R,"if nb < C * C * C then list.set","if nb + 1 < C * C * C then list.set","writeNeighbor","last cell missed","patches shared",P)
e("re-24_13",R,"loopM S (fun s a => a.set s (-1)) a","loopM (S - 1) (fun s a => a.set s (-1)) a","clearLoop","last entry not cleared","patch count",P)
e("re-24_14",R,"r.crn.corners.get (l + c * 8)","r.crn.corners.get (l + c * 6)","Ref.cornersInCell","stride 6","corners of a cell",S)
e("re-24_15",R,"r.crn.nodes.get (l + c * 8)","r.crn.nodes.get (l * 8 + c)","Ref.nodesInCell","swapped","nodes of a cell",S)
e("re-24_16",R,"r.zone.get (z * w + l)","r.zone.get (z + l * w)","Ref.cellInZone","swapped","zones",I)
e("re-24_17",R,"r.cellNodes.get (c * 8 + l)","r.cellNodes.get (c * 8 + 7 - l)","Ref.cellNodesInElem","reversed","nodes of a cell",I)
e("re-24_18",R,"r.pat.list.get (s + c * 6)","r.pat.list.get (c + s * 6)","Ref.patchesInCell","swapped","patches",P)
e("re-24_19",R,"store2 (store2 (store2 s.1 b 0 (s.2.1 b)) b 1 (s.2.2.1 b)) b 2 (s.2.2.2 b)","store2 (store2 (store2 s.1 b 0 (s.2.1 b)) b 1 (s.2.2.2 b)) b 2 (s.2.2.1 b)","copyGrad","eta and mu swapped","gradient tables",T)
e("re-24_20",R,"store s.2.1 b 0, store s.2.2.1 b 0, store s.2.2.2 b 0)) (r, xi, eta, mu)","s.2.1, store s.2.2.1 b 0, store s.2.2.2 b 0)) (r, xi, eta, mu)","copyGrad","xi not cleared","(equivalent: partialXi overwrites)",T)
e("re-24_21",R,"let pg ← gradLoop P V z pat.pos q.b","let pg ← gradLoop P V z nodes.1 q.b","init","patch gradients at the nodes","patch tables",T)
e("re-24_22",R,"let cb ← basisLoop ((n - 1) * (n - 1) * (n - 1)) V z pat.cellPos q.b","let cb ← basisLoop ((n - 1) * (n - 1) * (n - 1)) V z pat.pos q.b","init","cell basis at the patches","cell tables",T)
B="Blas/Model"; T="Verif.Blas.Theorems"
e("bl-24_01",B,"c.set (i + ldc * j) (v + t * u)","c.set (i + ldc * j) (t * u)","gemm","sum dropped","matmul",T)
e("bl-24_02",B,"let u ← a.get (i + lda * l)","let u ← a.get (l + lda * i)","gemm","a transposed","matmul",T)
e("bl-24_03",B,"let c ← loopM m (fun i c => c.set (i + ldc * j) 0) c\n","","gemm","not cleared","matmul",T)
e("bl-24_04",B,"let t ← b.get (l + ldb * j)","let t ← b.get (l + lda * j)","gemm","wrong leading dimension","matmul",T)
e("bl-24_05",B,"if m = 0 ∨ n = 0 then some c else\n    loopM n","if m = 0 ∨ n = 0 ∨ k = 0 then some c else\n    loopM n","gemm","early return for k = 0 (allowed by the BLAS only with beta = 1)","matmul with an empty inner dimension",T)
e("bl-24_06",B,"if lda < max 1 m ∨ ldb < max 1 k ∨ ldc < max 1 m then none else","if lda < max 1 k ∨ ldb < max 1 k ∨ ldc < max 1 m then none else","gemm","lda compared with k","matmul",T)
C="Common/Model"; T="Verif.Common.Theorems"
e("co-24_01",C,"mixedRadixLoop (b.zip x) 0 1","mixedRadixLoop (b.zip x) 0 0","mixedRadixToBase10","weight starts at 0","round trip",T)
e("co-24_02",C,"match encodeTerm 0 nx, encodeTerm 1 ny, encodeTerm 2 nz with","match encodeTerm 0 nx, encodeTerm 2 ny, encodeTerm 1 nz with","encodePartialDerivative","bits of y and z swapped","decode after encode",T)
e("co-24_03",C,"(ex ||| ey ||| ez).signExtend 64","(ex ||| ey ||| ez).zeroExtend 64","encodePartialDerivative","zero extension","order 11 in y",T)
e("co-24_04",C,"if c then p else 0","if c then 1 else 0","ind","counts instead of the position","decode",T)
W="SubWeights/Model"; T="Verif.SubWeights.Theorems"
e("sw-24_01",W,"(x1 - x0 - w0) / w1","(x1 - x0) / w1","alphas","w0 dropped","lengths equal node distances",T)
e("sw-24_02",W,"(x2 - x0 - (w0 + w1)) / w2","(x2 - x0 - w0) / w2","alphas","w1 dropped","lengths",T)
e("sw-24_03",W,"let len ← len.set 1 ((1 - a.1) * w1 + 1 / 2 * w2)","let len ← len.set 1 ((1 - a.1) * w1 + w2)","lengthWeights","half dropped","lengths",T)
e("sw-24_04",W,"let len ← len.set 2 ((1 - a.2) * w2 + 1 / 2 * w3)","let len ← len.set 2 (a.2 * w2 + 1 / 2 * w3)","lengthWeights","wrong share","lengths",T)
e("sw-24_05",W,"let t ← len.get 1\n    let len ← len.set 4 t","let t ← len.get 0\n    let len ← len.set 4 t","lengthWeights","wrong mirror","lengths",T)
e("sw-24_06",W,"let t ← sub.get 3\n    let sub ← sub.set 8 t","let t ← sub.get 2\n    let sub ← sub.set 8 t","subWeights","wrong mirror","sub weights",T)
e("sw-24_07",W,"let sub ← sub.set 3 (a.2 * w2)","let sub ← sub.set 3 (a.1 * w2)","subWeights","wrong alpha","sub weights",T)
e("sw-24_08",W,"let sub ← sub.set 1 (1 / 2 * w1)","let sub ← sub.set 1 w1","subWeights","half dropped","sub weights",T)
e("sw-24_09",W,"let l ← lengthWeights s.len w x p\n  let u ← subWeights s.sub w x p","let l ← lengthWeights s.len x w p\n  let u ← subWeights s.sub w x p","setNodesWgts","arguments swapped","lengths",T)
e("sw-24_10",W,"(5, 1, -1), (5, 2, 1)","(5, 1, 1), (5, 2, 1)","normalsTable","sign","unit normals",T)
e("sw-24_11",W,"a.set (t.1 * 3 + t.2.1) t.2.2","a.set (t.1 + t.2.1 * 3) t.2.2","setUnitNormals","wrong stride","unit normals",T)
X="Tensor/Model"; T="Verif.Tensor.Theorems"
e("te-24_01",X,"if 0 ≤ m then l[m.toNat]? else none","l[m.toNat]?","at'","negative index accepted","(used only with m ≥ 0; undefined cases)",T)
e("te-24_02",X,"noncomputable def lineGauss : ℤ → ℕ → Option (ℝ × ℝ) := lineInfo gaussPts gaussWts","noncomputable def lineGauss : ℤ → ℕ → Option (ℝ × ℝ) := lineInfo gaussWts gaussPts","lineGauss","points and weights swapped","rules",T)
e("te-24_03",X,"let a ← s.wts.set (m * cw + d) v","let a ← s.wts.set (m * cw) v","Out.setW","always column 0","weights",T)
e("te-24_04",X,"let a ← s.tot.set m v","let a ← s.tot.set 0 v","Out.setT","always entry 0","total weights",T)
e("te-24_05",X,"dir lineLobatto q cp cw m 1 j s) s\n\n/-- `lobatto_3d`","dir lineLobatto q cp cw m 1 i s) s\n\n/-- `lobatto_3d`","lobatto2d","i used twice","2-D rule",T)
e("te-24_06",X,"if 0 ≤ x then ⌊x⌋ else ⌈x⌉","⌈x⌉","trunc","rounds up","4-D indices",T)
V="Vtk/Model"
e("vt-24_01",V,"VTK_LAGRANGE_HEXAHEDRON : ℕ := 72","VTK_LAGRANGE_HEXAHEDRON : ℕ := 71","VTK_LAGRANGE_HEXAHEDRON","wrong code","cell type written","Verif.Vtk.FileTheorems")
e("vt-24_02",V,"VTK_TRIQUADRATIC_HEXAHEDRON : ℕ := 29","VTK_TRIQUADRATIC_HEXAHEDRON : ℕ := 25","VTK_TRIQUADRATIC_HEXAHEDRON","wrong code","cell type read","Verif.Vtk.FileTheorems")
Z="ComplexStep/Model"; T="Verif.ComplexStep.Theorems"
e("cs-24_01",Z,"def abs (z : ℂ) : ℝ := |z.re|","def abs (z : ℂ) : ℝ := |z.im|","abs","imaginary part","complex step",T)
e("cs-24_02",Z,"jacobiEvalDer n k 0 0 X","jacobiEvalDer n k 1 1 X","legEvalDer","wrong parameters","complex step of Legendre",T)
e("cs-24_03",Z,"LagrangeElement.evalApproxAt (find tol N Z) N Z C c X","LagrangeElement.evalApproxAt (find tol N Z) N Z c C X","lagApprox","work and coefficients swapped","complex step",T)
e("cs-24_04",Z,"if almostEqual tol (z j) x then 1 else 0)) (0 - 1)","if almostEqual tol (z j) x then 1 else 0)) 0","findCoincidentVertex","starts at 0","complex step",T)
L="Fp/LUModel"
e("lu-24_01",L,"ℝ := R.fl tiny","ℝ := R.fl (-tiny)","tinyR","sign","(no claim about the value)","Verif.Fp.LU")
e("lu-24_02",L,"backwardR R n a (forwardR R n a indx b).1","backwardR R n a b","backsubR","forward pass skipped","C backsub error","Verif.Fp.LUSolve")
A="Fp/AverageModel"; T="Verif.Fp.Average"
e("av-24_01",A,"pure (R.fl (t + R.fl (v / 8)))) 0","pure (R.fl (t + R.fl (v / 7)))) 0","cellAverageR","divides by 7","bounds",T)
e("av-24_02",A,"loopM 8 (fun l t => do","loopM 7 (fun l t => do","cellAverageR","seven nodes","bounds",T)
e("av-24_03",A,"let t ← nodeAverageR R m cell n\n","let t ← nodeAverageR R m s.cell n\n","smoothElementR","old cell values","error",T)
e("av-24_04",A,"    applyBoundary m s) s\n","    pure s) s\n","cyclesR","boundary dropped","boundary nodes",T)
D="Fp/RefineModel"
e("rf-24_01",D,"store s.2 i (dist1R R v s.1.1 s.1.2.1))","store s.2 i (dist1R R v s.1.1 s.1.1))","distLoopR","distance to itself","refine tolerance","Verif.Fp.RefineTheorems")
G="Lagrange/Model"; T="Verif.Lagrange.Theorems"
e("lg-24_01",G,"let p := s.1 * L\n","let p := s.1\n","evalDerRun","L dropped","derivatives",T)
e("lg-24_02",G,"    let p := c i\n    loop n (fun k s => derStepCoincident Nv i Z w (k + 1) s) ⟨c, p, 0, 1⟩","    let p := c i\n    loop n (fun k s => derStepCoincident Nv i Z w k s) ⟨c, p, 0, 1⟩","evalDerRun","order shifted","derivatives",T)
E="LagrangeElement/Model"; T="Verif.LagrangeElement.Theorems"
e("le-24_01",E,"some [i, j, k] => some (i.toNat, j.toNat, k.toNat)","some [i, j, k] => some (k.toNat, j.toNat, i.toNat)","digits","reversed","basis",T)
e("le-24_02",E,"evalInterp N iz Z w (X 2) (fun m => C (N + m))","evalInterp N iz Z w (X 2) C","evalApproxAt","wrong line","approximation",T)
e("le-24_03",E,"store C (N + k) (evalInterp N iy Z w (X 1) C)) C\n  evalInterp","store C (N + k) (evalInterp N iy Z w (X 0) C)) C\n  evalInterp","evalApproxAt","x for y","approximation",T)
e("le-24_04",E,"loop N (fun m C => store C m (src C m)) C","loop (N - 1) (fun m C => store C m (src C m)) C","copyTo","last entry missed","gradient",T)
e("le-24_05",E,"(det9 s.2, s.1)","(det9 J0, s.1)","evalDetJacAt","old content","Jacobian determinant",T)
Y="MeshBox/Model"; T="Verif.MeshBox.Theorems"
e("mb-24_01",Y,"if d = 0 then x else if d = 1 then y else z","if d = 0 then x else if d = 2 then y else z","row3","y and z swapped","positions",T)
e("mb-24_02",Y,"fun j => loopM ni fun i => body i j k) s","fun j => loopM ni fun i => body j i k) s","loop3","swapped","positions",T)
e("mb-24_03",Y,"if b.faces < 6 then none else","if b.faces < 7 then none else","build","one more","one-cell box builds",T)
F="MeshFile/Text"; T="Verif.MeshFile.Theorems"
e("mf-24_01",F,"(a * 10 + (c.toNat - 48)) 0" if False else "fun a c => a * 10 + (c.toNat - 48)","fun a c => a * 10 + (c.toNat - 49)","digVal","off by one","round trip",T,same_file=True)
e("mf-24_02",F,"List.replicate (w - s.length) ' ' ++ s","s ++ List.replicate (w - s.length) ' '","pad","left aligned","(file format; read back unaffected?)",T,same_file=True)
e("mf-24_03",F,"pad w ((if z < 0 then ['-'] else []) ++ dec z.natAbs)","pad w (dec z.natAbs)","fmtD","sign dropped","round trip",T,same_file=True)
e("mf-24_04","MeshFile/Model","let v ← cells.get (c * 8 + convOut l)\n" ,"let v ← cells.get (c * 8 + l)\n","writeAvg/write","no renumbering","round trip",T)
J="Legendre/Model"
e("lj-24_01",J,"if n = 1 then (1 / 2) * (α - β)","if n = 1 then (1 / 2) * (α + β)","jb","sign","Jacobi polynomials","Verif.Legendre.Theorems")
e("lj-24_02",J,"sum + c j * der j X) 0","sum + c j * der j X) 1","evalDerApproxAt","starts at 1","derivative of the expansion","Verif.Legendre.Theorems")
import os
for m in M:
    s=open("/verif/lean/"+m["file"]).read(); n=s.count(m["old"])
    if n!=1: print(m["id"],n)
json.dump(M,open("/tmp/mut24.json","w"),ensure_ascii=False,indent=1)
print(len(M))
