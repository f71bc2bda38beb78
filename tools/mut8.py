import json
M=[]
def g(id,old,new,d,edit,claim,**k):
    M.append(dict(id=id,file="Verif/Golub/Model.lean",old=old,new=new,edit=edit,claim=claim,target="Verif.Golub.Theorems",**{"def":d},**k))
def s(id,old,new,d,edit,claim,**k):
    M.append(dict(id=id,file="Verif/SubWeights/Model.lean",old=old,new=new,edit=edit,claim=claim,target="Verif.SubWeights.Theorems",**{"def":d},**k))
g("gj01","a.set k (-jb α β (k + 1) / ja α β (k + 1))) ⟨n, jdiag⟩","a.set k (-jb α β k / ja α β k)) ⟨n, jdiag⟩","gaussJacobi","diagonal coefficient index off by one","C67 exactness")
g("gj02","a.set k (-jb α β (k + 1) / ja","a.set k (jb α β (k + 1) / ja","gaussJacobi","sign of the diagonal","C67 exactness for alpha != beta")
g("gj03","√(jc α β (k + 2) / (ja α β (k + 1) * ja α β (k + 2)))","jc α β (k + 2) / (ja α β (k + 1) * ja α β (k + 2))","gaussJacobi","square root missing","C67 exactness")
g("gj04","√(jc α β (k + 2) / (ja α β (k + 1)","√(jc α β (k + 1) / (ja α β (k + 1)","gaussJacobi","subdiagonal index off by one","C67 exactness")
g("gj05","loopM (n - 1) (fun k (a : Arr ℝ) => a.set k (√","loopM (n - 2) (fun k (a : Arr ℝ) => a.set k (√","gaussJacobi","last subdiagonal entry not written","C67 exactness")
g("gj06","let q ← e.2.get j 0","let q ← e.2.get 0 j","gaussJacobi","wrong component of the eigenvectors","C67 weights")
g("gj07","s.weights.set j (q * q * mu0)","s.weights.set j (q * q)","gaussJacobi","zeroth moment missing","C67 weights")
g("gj08","2 ^ (α + β + 1) * Real.Gamma (α + 1)","2 ^ (α + β) * Real.Gamma (α + 1)","gaussJacobi","wrong power in the zeroth moment","C67 weights")
g("gj09","Real.Gamma (α + β + 2)","Real.Gamma (α + β + 1)","gaussJacobi","wrong Gamma argument","C67 weights")
g("gj10","let w ← s.weights.set 0 2","let w ← s.weights.set 0 (2 ^ (α + β + 1) * Real.Gamma (α + 1) * Real.Gamma (β + 1) / Real.Gamma (α + β + 2))","gaussJacobi","one-point weight repaired","C67_one_negation must fail")
g("gj11","let vals ← loopM diag.size","let vals ← loopM subdiag.size","eigSymTri","last eigenvalue not copied","C67 points")
g("gj12","let r := S.run diag.size copy.val subdiag.val","let r := S.run diag.size copy.val diag.val","eigSymTri","diagonal passed as subdiagonal","C67 exactness")
g("gj13","if n > 1 then do","if n > 2 then do","gaussJacobi","two-point rule not handled","C67 n = 2")
s("sw01","pure ((x1 - x0 - w0) / w1,","pure ((x1 - x0) / w1,","alphas","weight not subtracted","C56 split")
s("sw02","(x2 - x0 - (w0 + w1)) / w2)","(x2 - x0 - w0 + w1) / w2)","alphas","missing parentheses","C56 order 3")
s("sw03","let len ← len.set 1 ((1 - a.1) * w1 + 1 / 2 * w2)","let len ← len.set 1 ((1 - a.1) * w1 + w2)","lengthWeights","half lost at order 2","C56 spacing")
s("sw04","let len ← len.set 1 ((1 - a.1) * w1 + a.2 * w2)","let len ← len.set 1 ((1 - a.1) * w1 + a.1 * w2)","lengthWeights","wrong ratio","C56 spacing order 3")
s("sw05","let sub ← sub.set 3 (a.2 * w2)\n    let sub ← sub.set 4 ((1 - a.2) * w2)","let sub ← sub.set 3 ((1 - a.2) * w2)\n    let sub ← sub.set 4 (a.2 * w2)","subWeights","the two halves swapped","C56 edge")
s("sw06","let sub ← sub.set 1 (1 / 2 * w1)","let sub ← sub.set 1 w1","subWeights","order 1: weight counted twice","C56 node/sum")
s("sw07","let t ← sub.get 5\n    let sub ← sub.set 6 t\n    let t ← sub.get 4","let t ← sub.get 4\n    let sub ← sub.set 6 t\n    let t ← sub.get 4","subWeights","mirrored from the wrong entry","C56 symmetric half")
s("sw08","let w ← lobatto_weights_1D (2 * p + 1) s.weights","let w ← lobatto_weights_1D (2 * p) s.weights","setNodesWgts","rule with one point less","C56 set")
s("sw09","    let sub ← sub.set 3 (1 / 2 * w2)\n","    let sub ← sub.set 3 (1 / 2 * w1)\n","subWeights","order 2: wrong middle weight","C56 node")
s("sw10","    let t ← len.get 0\n    len.set 5 t","    pure len","lengthWeights","last length not written","C56 spacing k=5")
s("sw11","(5, 0, 1), (5, 1, -1), (5, 2, 1)","(5, 0, 1), (5, 1, 1), (5, 2, 1)","normalsTable","wrong sign at corner 5","C68")
s("sw12","(6, 0, -1), (6, 1, 1), (6, 2, 1), (7","(6, 0, -1), (6, 1, 1), (6, 1, 1), (7","normalsTable","component written twice, third missing","C68")
s("sw13","(2, 0, -1), (2, 1, 1), (2, 2, -1), (3, 0, 1), (3, 1, 1),\n    (3, 2, -1)","(3, 0, -1), (3, 1, 1), (3, 2, -1), (2, 0, 1), (2, 1, 1),\n    (2, 2, -1)","normalsTable","corners 2 and 3 swapped (VTK order)","C68")
json.dump(M,open("/tmp/mut8.json","w"))
