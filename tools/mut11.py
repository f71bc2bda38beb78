import json
M=[]
def e(id,old,new,d,edit,claim,f="CheckModel",target="Verif.Geometry.CheckTheorems",**k):
    M.append(dict(id=id,file="Verif/Geometry/%s.lean"%f,old=old,new=new,edit=edit,claim=claim,target=target,**{"def":d},**k))
e("ck01",":= [-1, 0, 0, 1, 0, 0,",":= [1, 0, 0, 1, 0, 0,","sideNormalTable","sign of the first normal","C74_closed, C74_affine")
e("ck02","[-1, 0, 0, 1, 0, 0, 0, -1, 0, 0, 1, 0, 0, 0, -1, 0, 0, 1]","[0, -1, 0, 0, 1, 0, -1, 0, 0, 1, 0, 0, 0, 0, -1, 0, 0, 1]","sideNormalTable","x and y sides swapped","C74_closed")
e("ck03","I j i * d * w","I i j * d * w","areaNormal","inverse transposed","C74_closed")
e("ck04","I j i * d * w","I j i * w","areaNormal","determinant missing","C74_closed")
e("ck05","I j i * d * w","I j i * d","areaNormal","weight missing","C74_closed")
e("ck06","(e * m.patchesInElem + rid) w i","(e * m.gaussInElem + rid) w i","sideTally","row length of the Gauss points","C74_closed")
e("ck07","r.pat.weights.get rid","r.pat.weights.get side","sideTally","weight of the patch numbered like the side","C74_closed")
e("ck08","loopM 6 fun side","loopM 5 fun side","surfTally","last side missing","C74_closed")
e("ck09","store t i (t i + a)","store t i a","sideTally","overwritten instead of added","C74_closed")
e("ck10","loopM m.cellsPerElem (fun cell","loopM (m.cellsPerElem - 1) (fun cell","surfTally","last cell missing","C74_closed")
e("ck11","let gid ← m.cellsInElem.get (e * m.cellsPerElem + lid)","let gid ← m.cellsInElem.get lid","checkVolume","element number missing","C74_volume")
e("ck12","let w ← r.pat.cellWeights.get lid","let w ← r.pat.cellWeights.get gid","checkVolume","weight looked up by global number","C74_volume")
e("ck13","pure (v + d * w)) 0","pure (v + d * w)) 1","checkVolume","sum starts at 1","C74_volume")
e("ck14","pure (v + d * w)) 0","pure (v + w)) 0","checkVolume","determinant missing","C74_volume")
e("ck15","let d ← det.get gid","let d ← det.get e","checkVolume","determinant of cell e","C74_volume")
e("ck16","sideNormalTable[side * 3 + dim]?","sideNormalTable[side * 3 + dim + 1]?","sideNormal","offset by one","C74_closed, bounds")
e("ck17","sideNormalTable[side * 3 + dim]?","sideNormalTable[side + 6 * dim]?","sideNormal","column-major","C74_closed")
e("ck18","asIndex (i : ℤ) : Option ℕ := if 0 ≤ i","asIndex (i : ℤ) : Option ℕ := if 0 < i","asIndex","patch 0 rejected","C74_closed, bounds")
c=dict(f="Model",target="Verif.Geometry.CurvedExamples")
e("gv20","pure (s.1 + dj * w, RefElem","pure (s.1 + w, RefElem","cornerSum","determinant missing","C73_volume",**c)
e("gv21","J 0 1 * (J 1 0 * J 2 2 - J 1 2 * J 2 0) +","J 0 1 * (J 1 0 * J 2 2 - J 1 2 * J 2 1) +","det","wrong minor","C73_volume",**c)
e("gv22","pointJ m N vm r.nodeGrad e lid (e * m.gaussInElem + lid)","pointJ m N vm r.nodeGrad e lid lid","gaussJacobian","element number missing","C73_volume",**c)
e("gv23","J i j + g v j * x i","J i j + g v i * x j","fillJ","transposed Jacobian (same determinant; entries wrong)","C48 entries",**c)
json.dump(M,open("/tmp/mut11.json","w"),ensure_ascii=False)
