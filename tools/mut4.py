import json
M=[]
def m(id,old,new,d,edit,claim,target,**k):
    M.append(dict(id=id,file="Verif/Geometry/Model.lean",old=old,new=new,edit=edit,claim=claim,target="Verif.Geometry."+target,**{"def":d},**k))
J="JacobianTheorems"; V="VolTheorems"; H="HexTheorems"
m("ge01","J 0 1 * (J 1 0 * J 2 2 - J 1 2 * J 2 0) +","J 0 1 * (J 1 0 * J 2 2 - J 1 2 * J 2 0) -","det","sign of the third cofactor","C48 determinant",J)
m("ge02","J 0 2 * (J 1 0 * J 2 1 - J 1 1 * J 2 0)","J 0 2 * (J 1 0 * J 2 1 - J 1 1 * J 0 2)","det","index typo J 0 2","C48 determinant",J)
m("ge03","J i j + g v j * x i","J i j + g v i * x j","fillJ","transposed Jacobian","C48 J(i,j) = dx_i/dxi_j",J)
m("ge04","(store2 J i j 0)) J) J","J) J) J","fillJ","entry not cleared","C48 (stale contents)",J)
m("ge05","m.nodesInElem.get (e * m.gaussInElem + vm v)","m.nodesInElem.get (e * m.gaussInElem + v)","fillJ","vertex map forgotten","C48 vertices of the element",J)
m("ge06","pure (store2 J i j (J i j + g v j * x i))) (store2","pure (store2 J i j (g v j * x i))) (store2","fillJ","sum over vertices overwritten","C48",J)
m("ge07","let d ← s.det.set gid (det J)","let d ← s.det.set lid (det J)","pointJ","determinant stored at the local index","C48 (second element)",J)
m("ge08","Jacobian.matInverse I J","Jacobian.matInverse J I","pointJ","arguments of the inverse swapped","C48 inverse",J)
m("ge09","pointJ m N vm r.nodeGrad e lid (e * m.gaussInElem + lid)","pointJ m N vm r.nodeGrad e lid (e * m.patchesInElem + lid)","gaussJacobian","wrong row length","C48",J)
m("ge10","pointJ m N vm r.patchGrad e lid","pointJ m N vm r.nodeGrad e lid","patchJacobian","gradients of the nodes used at patch points","C48 patch",J)
m("ge11","pointJ m N vm r.cellGrad e lid gid s) s","pointJ m N vm r.cellGrad e lid lid s) s","cellJacobian","local cell number used","C48 cell",J)
m("ge12","let row := store row d (row d / 8)\n","","cellCoords","division forgotten","C47",H)
m("ge13","(store row d 0)\n  let row := store row d (row d / 8)","row\n  let row := store row d (row d / 8)","cellCoords","accumulator not cleared on access","C47 (second access)",H)
m("ge14","let g ← m.gaussInCell.get (gid * 8 + l)","let g ← m.gaussInCell.get (lid * 8 + l)","cornerSum","Gauss points of the local cell","C49 (second element)",V)
m("ge15","let c ← r.cornersInCell lid l","let c ← r.cornersInCell lid 0","cornerSum","always the first corner","C49 corner weights",V)
m("ge16","pure (s.1 + dj * w, ","pure (s.1 + w, ","cornerSum","determinant dropped","C49 volume",V)
m("ge17","(s.1.coords) gid 0","(s.1.coords) gid 0","volCell","noop","noop",V) if False else None
m("ge18","pure (⟨cell, cc, s.1.elem⟩, s.2 + t.1)","pure (⟨cell, cc, s.1.elem⟩, t.1)","volCell","element volume overwritten instead of summed","C49 element volume",V)
m("ge19","let t ← loopM m.cellsPerElem (volCell m r detJ e) (s, 0)","let t ← loopM (m.cellsPerElem - 1) (volCell m r detJ e) (s, 0)","volJacobi","last cell skipped","C49",V)
m("ge20","let ev ← t.1.elem.set e t.2","let ev ← t.1.elem.set e t.2\n    let ev := t.1.elem","volJacobi","element volume not stored","C49",V)
m("ge21","[0, 1, 3, 2, 4, 5, 7, 6].getD l 0","[0, 1, 2, 3, 4, 5, 6, 7].getD l 0","cCon","no conversion to the finite element order","C46 volume",H)
m("ge22","(x 1*(y 3*(-z 0 + z 2)","(x 1*(y 3*(z 0 - z 2)","hexVol","sign in the volume expression","C46 volume","HexVolume")
m("ge23","*(1 / 12)","*(1 / 6)","hexVol","factor two in the volume","C46 volume","HexVolume")
m("ge24","RefElem.row3 (s.2 0 + verts l 0) (s.2 1 + verts l 1) (s.2 2 + verts l 2))) s","RefElem.row3 (s.2 0 + p 0) (s.2 1 + p 1) (s.2 2 + p 2))) s","hexVerts","the stale read repaired (negation must fail)","C47_stored_negation",H)
m("ge25","let cell ← s.vol.cell.set c (hexVol","let cell ← s.vol.cell.set 0 (hexVol","hexCell","volume always stored in cell 0","C46",H)
m("ge26","hexVol (fun l => t.1 l 0) (fun l => t.1 l 1) (fun l => t.1 l 2)","hexVol (fun l => t.1 l 0) (fun l => t.1 l 2) (fun l => t.1 l 1)","hexCell","y and z swapped","C46 (sign)",H)
m("ge27","(t.2 1 * (1 / 8))\n  let cc ← assignCellCoords m cc gid 2 (t.2 2 * (1 / 8))\n  pure (⟨cell, cc, s.1.elem⟩","(t.2 1 * (1 / 8))\n  let cc ← assignCellCoords m cc gid 2 (t.2 1 * (1 / 8))\n  pure (⟨cell, cc, s.1.elem⟩","volCell","y written to z centre","C49 cell centre",V)
m("ge28","cellCoords m cc c d\n  let row ← cc.1.get c\n  cc.1.set c (store row d v)","cellCoords m cc c d\n  pure cc.1","assignCellCoords","assignment dropped","C47_stored",H)
json.dump(M,open("/tmp/mut4.json","w"))
