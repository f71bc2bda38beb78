import json
M=[]
def e(id,f,old,new,d,edit,claim,target,**k):
    M.append(dict(id=id,file="Verif/%s.lean"%f,old=old,new=new,edit=edit,claim=claim,target=target,**{"def":d},**k))
C="MeshFile/CutModel"; T="Verif.MeshFile.CutTheorems"
e("cut-23_01",C,"  | fuel + 1, [] => fgetcLoop fuel []\n","  | _ + 1, [] => some []\n","fgetcLoop","end of file ends the line","C102_cut_partial: hangs inside the header",T)
e("cut-23_02",C,"(x.1.getD (row d))","(x.1.getD 0)","readCoordsT","missing coordinate set to 0","C102_cut_partial: uninitialised coordinates",T)
e("cut-23_03",C,"let a ← s.1.set (c * 8 + l) (v.1.getD old)","let a ← s.1.set (c * 8 + l) (v.1.getD 0)","readCellsT","missing node set to 0","C102_cut_partial: uninitialised nodes",T)
e("cut-23_04",C,"let a ← a.set (c * 8 + l) (w - 1)","let a ← a.set (c * 8 + l) w","readCellsT","not shifted to 0","C102_cut_partial",T)
e("cut-23_05",C,"let elems := e.1.getD 0","let elems := e.1.getD 1","readBody","one cell by default","C102_cut_partial: no cells",T)
e("cut-23_06",C,"let num := n.1.getD q.n\n","let num := n.1.getD 0\n","readBody","num_nodes initialised to 0","(equivalent for the claims: a cut before the first digit is not described)",T)
e("cut-23_07",C,"if d = [] then (none, t.2)\n  else (some (if t.1 then","if d = [] then (none, s)\n  else (some (if t.1 then","scanDT","input kept at a failure","(same values: blanks stay unread)",T)
e("cut-23_08",C,"if n ≤ (t.takeWhile fun c => !isSp c).length then none","if n ≤ (t.takeWhile fun c => !isSp c).length + 15 then none","scanWordT","buffer too small for hexa8","C102_cut_partial: returns",T)
e("cut-23_09",C,"let r ← readCoordsT num.toNat (⟨num.toNat, q.r⟩, n.2)","let r ← readCoordsT num.toNat (⟨num.toNat, q.r⟩, s)","readBody","coordinates read from the count on","C102_cut_partial",T)
e("cut-23_10",C,"let c ← convertCells elems.toNat (c.1, q.tmp)\n","","readBody","no renumbering","C102_cut_partial: convIn",T)
e("cut-23_11",C,"if d = [] then (none, u.2) else (some","if d = [] then (some 0, u.2) else (some","scanExpT.num","exponent without digits accepted","(partial coordinates are not described; agreement theorem unaffected)",T)
e("cut-23_12",C,"loopM 8 (fun _ s => fgetcLoop fuel s) s","loopM 7 (fun _ s => fgetcLoop fuel s) s","headerLoop","seven lines","C102_cut_partial",T)
H="HexN/Model"; T="Verif.HexN.Theorems"
e("hx-23_01",H,"loop n (fun i interp => store interp i (loop n (basisStep z x i) (1, 1, 1)).2.2) interp","loop (n - 1) (fun i interp => store interp i (loop n (basisStep z x i) (1, 1, 1)).2.2) interp","lagrangeBasis1D","last vertex missed","C11 basis",T)
e("hx-23_02",H,"(loop n (derivStep n z x i) (1, 0, 0)).2.2) der","(loop n (derivStep n z x i) (1, 1, 0)).2.2) der","lagrangeDerivative1D","sum starts at 1","derivatives",T)
e("hx-23_03",H,"let den := if j ≠ i then s.1 * (z i - z j) else s.1\n  let ng","let den := if j ≠ i then s.1 * (z j - z i) else s.1\n  let ng","derivStep","sign of the denominator","derivatives",T)
e("hx-23_04",H,"(fun i s => (store s.1 i 0, store2 s.2 i c (s.1 i))) (v, t)","(fun i s => (store s.1 i 0, store2 s.2 i 0 (s.1 i))) (v, t)","saveColumn","always column 0","basis",T)
e("hx-23_05",H,"(fun i s => (store s.1 i 0, store2 s.2 i c (d i))) (v, t)","(fun i s => (store s.1 i 0, store2 s.2 i c (s.1 i))) (v, t)","saveColumnOther","saves the cleared array","partial mu",T)
e("hx-23_06",H,"loop n (fun i b => store b (rid n i j k) (f i j k)) b","loop n (fun i b => store b (rid n j i k) (f i j k)) b","tensor","i and j swapped","basis",T)
e("hx-23_07",H,"tensor n (fun i j k => s.2 i 0 * ds.2 j 1 * s.2 k 2) b","tensor n (fun i j k => s.2 i 0 * s.2 j 1 * s.2 k 2) b","partialEta","derivative not used","partial eta",T)
e("hx-23_08",H,"let dv := lagrangeDerivative1D n z (pt 2) dv","let dv := lagrangeDerivative1D n z (pt 1) dv","partialMu","derivative at the wrong coordinate","partial mu",T)
e("hx-23_09",H,"def numVerts1d (order : ℕ) : ℕ := if order = 0 then 2 else order + 1","def numVerts1d (order : ℕ) : ℕ := if order = 0 then 2 else order","numVerts1d","one vertex missing","setup",T)
e("hx-23_10",H,"(store s.1 s.2 (rid n (st * i) (st * j) (st * k)), s.2 + 1)","(store s.1 s.2 (rid n (st * i) (st * j) k), s.2 + 1)","vertNodeLoop","stride of k","vertex-node map",T)
e("hx-23_11",H,"(store s.1 s.2 (nodes (st * i)), s.2 + 1))\n","(store s.1 s.2 (nodes i), s.2 + 1))\n","verts1d","every node","vertices",T)
e("hx-23_12",H,"      (rid n i j k) 2 (nodes k)) c) c) c","      (rid n i j k) 2 (nodes j)) c) c) c","nodeCoords","z from j","node coordinates",T)
e("hx-23_13",H,"(num, den, num / den, p, p / den)","(num, den, num / den, p, p)","quadStep","gradient not divided","QuadN partials",T)
e("hx-23_14",H,"(loop n (quadStep n z x i) (1, 1, 1, 0, s.2.2)" if False else "loop n (quadStep n z x i) (1, 1, 1, 0, s.2.2)","loop n (quadStep n z x i) (1, 1, 1, s.2.2, s.2.2)","quadLagrange1D","sum not reset","QuadN partials",T)
e("hx-23_15",H,"  loop (n * n) (quadBody n z pt) s","  loop (n * n - 1) (quadBody n z pt) s","quadBasisPartials","last node missed","QuadN basis",T)
e("hx-23_16",H,"store p d (p d + nodes v d * b v)) p) x0","store p d (nodes v d * b v)) p) x0","quadPhysicalPosition","no accumulation","QuadN physical position",T)
e("hx-23_17",H,"if c = 2 then n * n - n else n * n - 1","if c = 2 then n * n - 1 else n * n - n","quadCorners","corners swapped","QuadN corners",T)
J="Jacobian/Model"; T="Verif.Jacobian.Theorems"
e("jc-23_01",J,"(J, J 0 0 * J 1 1 - J 0 1 * J 1 0)","(J, J 0 0 * J 1 1 + J 0 1 * J 1 0)","jacobian2d","sign","det 2d",T)
e("jc-23_02",J,"    - J 0 1 * (J 1 0 * J 2 2) - (J 2 0 * J 1 2)","    - J 0 1 * (J 1 0 * J 2 2 - J 2 0 * J 1 2)","jacobian3d","one parenthesis corrected","what jacobian_3d computes",T)
e("jc-23_03",J,"store2 Jinv 0 1 (-J 0 1 / det)","store2 Jinv 0 1 (-J 1 0 / det)","jacobianInverse2d","transposed","inverse 2d",T)
e("jc-23_04",J,"let A13 := J 1 0 * J 1 1 - J 2 0 * J 1 1","let A13 := J 1 0 * J 2 1 - J 2 0 * J 1 1","jacobianInverse3d","the wrong cofactor corrected","what jacobian_inverse_3d computes",T)
e("jc-23_05",J,"let det := J 0 0 * A11 + J 0 1 * A21 + J 0 2 * A31","let det := J 0 0 * A11 + J 0 1 * A12 + J 0 2 * A13","jacobianInverse3d","other cofactors","inverse 3d",T)
U="LU/Model"; T="Verif.LU.Theorems"
e("lu-23_01",U,"if |a i j| > big then |a i j| else big) 0","if |a i j| > big then a i j else big) 0","rowMax","without magnitude","LU: scaling",T)
e("lu-23_02",U,"if rowMax n a i = 0 then none else","if rowMax n a i = 1 then none else","scaling","wrong test","LU return 0 iff zero row",T)
e("lu-23_03",U,"    let a := store2 a imax k (a j k)\n    store2 a j k temp) a","    let a := store2 a imax k (a j k)\n    store2 a j k (a imax k)) a","swapRows","temp not used","LU",T)
e("lu-23_04",U,"loop n (fun k a =>\n    let temp := a imax k","loop j (fun k a =>\n    let temp := a imax k","swapRows","only the first j columns","LU",T)
e("lu-23_05",U,"if a j j = 0 then store2 a j j tiny else a","a","fixPivot","zero pivot kept","LU singular",T)
e("lu-23_06",U,"{ ret := 1, a := s.a, indx := s.indx, parity := s.parity }","{ ret := 1, a := s.a, indx := s.indx, parity := 1 }","decompos","parity lost","LU determinant",T)
e("lu-23_07",U,"  backward n a (forward n a indx b).1","  backward n a b","backsub","no forward substitution","LU solve",T)
e("lu-23_08",U,"loop n (fun j res => res * a j j) (parity : K)","loop n (fun j res => res * a j j) 1","determ","parity ignored","LU determinant",T)
e("lu-23_09",U,"def tiny : K := 1 / 10 ^ 30","def tiny : K := 0","tiny","zero","LU singular",T)
json.dump(M,open('/tmp/mut23.json','w'))
import collections
for m in M:
    s=open('/verif/lean/'+m['file']).read(); n=s.count(m['old'])
    if n!=1 and 'nth' not in m: print("BAD",m['id'],n)
print(len(M))
