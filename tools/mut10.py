import json
M=[]
def e(id,old,new,d,edit,claim,target="Verif.DetJac.Boxes",**k):
    M.append(dict(id=id,file="Verif/DetJac/Model.lean",old=old,new=new,edit=edit,claim=claim,target=target,**{"def":d},**k))
def a(id,old,new,d,edit,claim,**k): e(id,old,new,d,edit,claim,target="Verif.DetJac.AnnulusError",**k)
e("dj01","[.ofNat i, .ofNat j, .ofNat k]","[.ofNat k, .ofNat j, .ofNat i]","nodeId","digits reversed","C70_value: even nodes of the element are the vertices")
e("dj02","(nodeId n (2 * i) (2 * j) (2 * k))","(nodeId n i j k)","vertNodeMap","step 1 instead of 2","C70_value: even nodes")
e("dj03","pure (s.1 + 1, map)) (0, map)","pure (s.1 + 1, map)) (1, map)","vertNodeMap","vert_id starts at 1","C70_value: bounds")
e("dj04","    let x ← lob.get m\n","    let x ← lob.get v\n","vertCoords","Lobatto point v instead of vert_node_map[v]","C70_value: degree-p map through even points")
e("dj05","let g ← m.nodes.get (e * m.stride + id)","let g ← m.nodes.get (e * m.stride + v)","elemVerts","first nodes instead of the even nodes","C70_value")
e("dj06","let g ← m.nodes.get (e * m.stride + id)","let g ← m.nodes.get (e * m.order + id)","elemVerts","wrong row length","C70_value")
e("dj07","let vy ← s.vy.set v (x 1)\n    let vz ← s.vz.set v (x 2)\n    pure ⟨vx, vy, vz⟩) s\n\n/-- State","let vy ← s.vy.set v (x 2)\n    let vz ← s.vz.set v (x 1)\n    pure ⟨vx, vy, vz⟩) s\n\n/-- State","elemVerts","y and z swapped","C70_value (sign of the determinant)")
e("dj08","let det ← s.det.set g r.1","let det ← s.det.set (e * n ^ 3 + lid) r.1","detAt","stored at the Gauss point number (repair)","C70_gauss_negation and C70_shared_negation must fail")
e("dj09","fun c => if c = 0 then x0 else if c = 1 then x1 else x2","fun c => if c = 0 then x0 else if c = 1 then x1 else x1","detAt","third reference coordinate wrong","C70_value")
e("dj10","let g ← m.nodes.get (e * m.stride + lid)","let g ← m.nodes.get (lid)","detAt","element number missing","C70_value")
e("dj11","loopM (n ^ 3) (detAt m N n z.val lob q.jac e)","loopM (N ^ 3) (detAt m N n z.val lob q.jac e)","evaluate","loop over vertices instead of nodes","C70_value")
e("dj12","loopM (n ^ 3) (detAt m N n z.val lob q.jac e)","loopM (n ^ 3) (detAt m N n lob.val lob q.jac e)","evaluate","all Lobatto points as vertices","C70_value")
e("dj13","let s ← loopM m.numElems (fun e (s : St) => do\n    let vs ← elemVerts","let s ← loopM (m.numElems - 1) (fun e (s : St) => do\n    let vs ← elemVerts","evaluate","last element skipped","C70_value")
e("dj14","let lob ← Quad.lobatto_nodes_1D n ⟨n, q.lob⟩","let lob ← Quad.lobatto_nodes_1D N ⟨n, q.lob⟩","evaluate","Lobatto rule with p+1 points","C70_value")
a("an01","let g ← m.nodes.get (e * m.stride + v)","let g ← m.nodes.get (e * V + v)","copyVerts","row length (p+1)^3 instead of the allocated stride","C71_value")
a("an02","if c = 0 then Z i else if c = 1 then Z j else Z k","if c = 0 then Z k else if c = 1 then Z j else Z i","vertDet","reference directions reversed","C71_value")
a("an03","let det ← s.det.set (e * V + ii) r.1","let det ← s.det.set ii r.1","vertDet","element number missing in the result","C71_value")
a("an04","let Z ← Points.equispacedPoints N (-1) 1 q.z","let Z ← Points.equispacedPoints N 0 1 q.z","compute","reference interval [0,1]","C71_value")
a("an05","let s ← loopM m.numElems (fun e (s : St) => do\n    let vs ← copyVerts","let s ← loopM (m.numElems - 1) (fun e (s : St) => do\n    let vs ← copyVerts","compute","last element skipped","C71_value")
a("an06","fun d => if d = 0 then -r * Real.cos theta","fun d => if d = 0 then r * Real.cos theta","annPoint","sign of x","C71_mesh, C71_accuracy (negative determinants)")
a("an07","let r := (1 / 2 : ℝ) + j * (5 / 2 - 1 / 2)","let r := (1 / 2 : ℝ) + j * (5 / 2)","annPoint","outer radius wrong","C71_mesh")
a("an08","-1 + 2 * k / ((N : ℝ) - 1)","-1 + 2 * k / (N : ℝ)","annPoint","height divided by N","C71_mesh")
a("an09","if i = N - 1 then nodes.set (1 * stride + (ii - i)) cnt","if i = 0 then nodes.set (1 * stride + (ii - i)) cnt","annShare","shares the first column","C71_mesh conformity")
a("an10","nodes.set (1 * stride + (ii - i)) cnt","nodes.set (1 * stride + ii) cnt","annShare","shared node stored at the last place of the row","C71_mesh conformity")
a("an11","(annPoint N (1 / 2 * Real.pi) Real.pi i j k)","(annPoint N 0 (1 / 2 * Real.pi) i j k)","annSecond","angle bounds not updated","C71_mesh positions")
a("an12","  let i := i' + 1\n","  let i := i'\n","annSecond","second element starts at column 0","C71_mesh conformity")
a("an13","pure ⟨s.cnt + 1, coords, nodes⟩\n\n/-- A vertex of the second","pure ⟨s.cnt, coords, nodes⟩\n\n/-- A vertex of the second","annFirst","counter not advanced","C71_mesh positions")
a("an14","⟨0, ⟨N ^ 3 * 2 - N * N, jc⟩","⟨0, ⟨N ^ 3 * 2 - 2 * (N * N), jc⟩","annular","too few nodes allocated","C71_mesh bounds")
a("an15","loopM (N - 1) fun i => annSecond","loopM (N - 2) fun i => annSecond","annular","last column of the second element missing","C71_mesh positions")
a("an16","let nodes ← s.nodes.set (1 * stride + ii) s.cnt","let nodes ← s.nodes.set (0 * stride + ii) s.cnt","annSecond","second element written into the row of the first","C71_mesh")
def l(id,old,new,d,edit,claim,f="Verif/Lagrange/Model.lean",**k):
    M.append(dict(id=id,file=f,old=old,new=new,edit=edit,claim=claim,target="Verif.Lagrange.Error",**{"def":d},**k))
json.dump(M,open("/tmp/mut10.json","w"),ensure_ascii=False)
