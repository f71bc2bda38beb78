import json
M=[]
def e(id,f,old,new,d,edit,claim,target,**k):
    M.append(dict(id=id,file="Verif/%s.lean"%f,old=old,new=new,edit=edit,claim=claim,target=target,**{"def":d},**k))
G="Fp/GeomModel"; T="Verif.Fp.HexTheorems"
e("gf-21_01",G,"x 1*(y 3*(-z 0 + z 2)","x 1*(y 3*(z 0 + z 2)","hexSum","sign of the first term","C96_volume",T)
e("gf-21_02",G,"⟨R.fl (1 / 12)⟩","⟨R.fl (1 / 6)⟩","hexVol","a sixth","C96_volume",T)
e("gf-21_03",G,"let node ← m.nodesInCell.get (c * 8 + l)\n    let p ←","let node ← m.nodesInCell.get (c * 8 + (l + 1) % 8)\n    let p ←","hexVerts","nodes shifted","C96_volume",T)
e("gf-21_04",G,"store s.1 (cCon l)","store s.1 l","hexVerts","convert_vert_list_hex dropped","C96_volume",T)
e("gf-21_05",G,"s.vol.cell.set c (hexVol","s.vol.cell.set 0 (hexVol","hexCell","volume stored in cell 0","C96_volume",T)
e("gf-21_06",G,"let row := store row d (R.fl (row d / 8))","let row := store row d (R.fl (row d / 4))","cellCoords","divided by 4","C96_center",T)
e("gf-21_07",G,"pure (store row d (R.fl (row d + x d)))) (store row d 0)","pure (store row d (R.fl (row d + x d)))) row","cellCoords","sum not reset","C96_center",T)
e("gf-21_09",G,"loopM m.cells (hexCell R m)","loopM (m.cells - 1) (hexCell R m)","volHex","last cell missed","C96_volume",T)
J="Fp/JacModel"; T="Verif.Fp.VolJacTheorems"
e("jf-21_01",J,"J 0 1 * (J 1 0 * J 2 2 - J 1 2 * J 2 0) +","J 0 1 * (J 1 0 * J 2 2 - J 1 2 * J 2 1) +","det3","wrong index","C97_det",T)
e("jf-21_02",J,"J 2 1 * J 1 2) -\n  J 0 1","J 2 1 * J 1 2) +\n  J 0 1","det3","sign","C97_det",T)
e("jf-21_03",J,"| 0, 1 => M 0 2 * M 2 1 - M 0 1 * M 2 2","| 0, 1 => M 0 1 * M 2 2 - M 0 2 * M 2 1","cof3","sign of a cofactor","C97_inverse",T)
e("jf-21_04",J,"| 0, 1 => M 0 2 * M 2 1 - M 0 1 * M 2 2","| 0, 1 => M 1 2 * M 2 0 - M 1 0 * M 2 2","cof3","transposed cofactor","C97_inverse",T)
e("jf-21_05",J,"* R.fl (1 / det R M))","* R.fl (det R M))","matInverse","multiplied by the determinant","C97_inverse",T)
e("jf-21_06",J,"R.fl (g v j * x i))))) (store2 J i j 0))","R.fl (g v j * x i))))) J)","fillJ","entry not reset","C97_entries",T)
e("jf-21_07",J,"R.fl (g v j * x i)","R.fl (g v i * x j)","fillJ","transposed","C97_entries",T)
e("jf-21_08",J,"m.nodesInElem.get (e * m.gaussInElem + vm v)","m.nodesInElem.get (e * m.gaussInElem + v)","fillJ","vertex map dropped","C97_entries",T)
e("jf-21_09",J,"s.det.set gid (det R J)","s.det.set gid (R.fl (det R J * det R J))","pointJ","determinant squared","C97_det",T)
e("jf-21_10",J,"s.inv.set gid (matInverse R J)","s.inv.set gid J","pointJ","inverse not computed","C97_inverse",T)
e("jf-21_11",J,"pointJ R m N vm grad e l g s","pointJ R m N vm grad e g g s","jacobian","gradients of the global point number","C97_entries",T)
e("jf-21_12",J,"loopM 8 (fun l (s : ℝ × (ℕ → ℝ)) => do\n    let g","loopM 7 (fun l (s : ℝ × (ℕ → ℝ)) => do\n    let g","cornerSum","last corner missed","C98_volumes",T)
e("jf-21_13",J,"R.fl (s.1 + R.fl (dj * w))","R.fl (s.1 + dj)","cornerSum","weight dropped","C98_volumes",T)
e("jf-21_14",J,"let t ← loopM m.cellsPerElem (volCell R m r detJ e) (s, 0)","let t ← loopM m.cellsPerElem (volCell R m r detJ e) (s, 1)","volJacobi","element volume starts at 1","C98_volumes",T)
e("jf-21_15",J,"R.fl (s.2 + t.1))","R.fl t.1)","volCell","element volume is the last cell","C98_volumes",T)
e("jf-21_16",J,"let t ← cornerSum R m r detJ lid gid","let t ← cornerSum R m r detJ 0 gid","volCell","weights of the first cell","C98_volumes",T)
e("jf-21_18",J,"m.gaussInCell.get (gid * 8 + l)","m.gaussInCell.get (lid * 8 + l)","cornerSum","local cell number","C98_volumes",T)
L="Fp/LagrangeModel"
for n,(old,new,d,ed,cl,t) in enumerate([
 ("(UInt64.ofNat j + 1) *","(UInt64.ofNat j) *","findVertex","off by one","C94/C95","Verif.Fp.LagrangeTheorems"),
 ("(loop N (fun k wj => if j ≠ k then","(loop (N - 1) (fun k wj => if j ≠ k then","weights","last vertex missed","C94","Verif.Fp.LagrangeTheorems"),
 ("R.fl (1 / R.fl (z j - z k))","R.fl (1 / R.fl (z k - z j))","weights","sign","C94","Verif.Fp.LagrangeTheorems"),
 ("(if i = ic then 1 else 0)","(if i = ic then 0 else 1)","eval","swapped","C94","Verif.Fp.LagrangeTheorems"),
 ("R.fl (R.fl (L * w i) / R.fl (X - Z i))","R.fl (R.fl (L * w i) * R.fl (X - Z i))","eval","multiplied","C94","Verif.Fp.LagrangeTheorems"),
 ("if i < Nv then c i\n","if i < Nv then c 0\n","evalInterp","first coefficient","C94","Verif.Fp.LagrangeTheorems"),
 ("R.fl (s.2 * R.fl (X - Z j)))) (0, 1)","R.fl (s.2 * R.fl (X - Z j)))) (0, 0)","sumLoop","product starts at 0","C94","Verif.Fp.LagrangeTheorems"),
 ("let M := R.fl (s.M * k)\n  let dnp := R.fl (t.2 * R.fl (-M / w i))","let M := R.fl (s.M + k)\n  let dnp := R.fl (t.2 * R.fl (-M / w i))","derStepCoincident","factorial replaced by a sum","C95","Verif.Fp.LagrangeDerTheorems"),
 ("let dnp := R.fl (t.2 * R.fl (L * M))","let dnp := R.fl (t.2 * M)","derStepNonCoincident","L dropped","C95","Verif.Fp.LagrangeDerTheorems"),
 ("R.fl (-M / w i)","R.fl (M / w i)","derStepCoincident","sign dropped","C95","Verif.Fp.LagrangeDerTheorems"),
 ("let lk := eval R N k (findVertex R tol N Z (X 2)) Z w (X 2)","let lk := eval R N k (findVertex R tol N Z (X 1)) Z w (X 2)","evalBasis","coincidence of y used for z","C94/C95","Verif.Fp.LagrangeTheorems"),
 ("fun m => c (j * N + k * N * N + m)","fun m => c (k * N + j * N * N + m)","evalApprox","j and k swapped","C94/C95","Verif.Fp.LagrangeTheorems"),
 ],1):
    e("lf-21_%02d"%n,L,old,new,d,ed,cl,t)
json.dump(M,open("/tmp/mut21.json","w"))
